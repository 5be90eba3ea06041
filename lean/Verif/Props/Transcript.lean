import Verif.Lemmas.Transcript
/-
The complete log (C75).
-/
namespace SudoPair
open Spec Audit

variable {α β : Type}

/-- A session is decided upon unless it trips an assertion of a debug build. -/
theorem undecided_iff {rt : Rt} {p : Pair} :
    p.isExempt rt.debug = none ↔ rt.debug = true ∧ Trips p.env p.options := by
  constructor
  · intro h
    cases hd : rt.debug with
    | true => rw [hd] at h; exact ⟨rfl, (C50_trips _).1 h⟩
    | false =>
      rw [hd] at h
      obtain ⟨b, hb⟩ := C04_total p
      rw [hb] at h; exact absurd h (by simp)
  · rintro ⟨hd, h⟩
    rw [hd]; exact (C50_trips _).2 h

/-- **C75.**  What an `open` whose arguments are rejected, or without a command, records: nothing. -/
theorem C75_none {rt : Rt} {a : OpenArgs} {st : State} {o t} (hr : LRuns (Audit.Core.open rt a st) o t)
    (h : ∀ env0, IoEnv.new rt a = some (.ok env0) → (effEnv st env0).commandInfo.command = []) : records t = [] := by
  rcases coreOpen_trace hr with ⟨_, h⟩ | ⟨env0, E, h1, rfl, h2, _⟩
  · exact h
  · exact absurd (h env0 h1) h2

/-- **C75.**  The complete log of every other `open`.  In a debug build whose assertions trip: the first two records
and that the session is given up.  Otherwise, if it succeeds: one of the courses that do, and that the session is
given up if there already was another one.  If it refuses: a part of a course, but not all of one that succeeds, and
that the session is given up.  If it is cut off: a part of a course, and perhaps that the session is given up. -/
theorem C75_open {rt : Rt} {a : OpenArgs} {st : State} {o t} (hr : LRuns (Audit.Core.open rt a st) o t)
    (env0 : IoEnv) (hn : IoEnv.new rt a = some (.ok env0)) (E : IoEnv) (hE : E = effEnv st env0)
    (hc : E.commandInfo.command ≠ []) (opts : PluginOptions) (ho : opts = .ofMap E.pluginOptions)
    (path : Bytes) (hp : path = sessionPath E) :
    (rt.debug = true ∧ Trips E opts ∧ (∃ st', o = .ok (-1, st')) ∧ records t = prologue E opts ++ [leaving E]) ∨
    (¬ (rt.debug = true ∧ Trips E opts) ∧
      ((∃ st' b full, o = .ok (1, st') ∧ Course (Detailed rt) E opts path true b full ∧
          records t = full ++ if st.plugin.isSome then [leaving E] else []) ∨
       ((∃ st', o = .ok (-1, st')) ∧ StopsShort (Detailed rt) E opts path (records t)) ∨
       (o = .killed ∧ CutOff (Detailed rt) E opts path (records t)))) := by
  rw [← sessionPath_eq] at hp
  subst ho hp
  rcases coreOpen_trace hr with ⟨h | ⟨env1, h1, h2⟩, _⟩ | ⟨env1, E', h1, hE', _, h⟩
  · exact absurd hn (h env0)
  · rw [hn] at h1; cases h1
    rw [hE] at hc; exact absurd h2 hc
  · rw [hn] at h1; cases h1
    rw [← hE] at hE'
    subst hE'
    rcases h with ⟨hi, h1, h2⟩ | ⟨hi, h⟩
    · have := undecided_iff.1 hi
      exact Or.inl ⟨this.1, this.2, h1, h2⟩
    · refine Or.inr ⟨fun h => hi (undecided_iff.2 h), ?_⟩
      rcases h with ⟨st', b, full, h1, _, h2, h3⟩ | h
      · exact Or.inl ⟨st', b, full, h1, h2, h3⟩
      · exact Or.inr h

/-- **C75.**  `close` records that the session is given up, and before that, with a pair, that it is about to end and
that it has ended; nothing without a session. -/
theorem C75_close {st : State} {o t} (hr : LRuns (Audit.Core.close st) o t) :
    (st.plugin = none ∧ o = .ok ⟨none, none⟩ ∧ records t = []) ∨
    ∃ p, st.plugin = some p ∧
      ((p.socket = none ∧ o = .ok ⟨none, none⟩ ∧ records t = [leaving p.env]) ∨
       (p.socket ≠ none ∧ o = .ok ⟨none, none⟩ ∧ records t = parting p.env) ∨
       (p.socket ≠ none ∧ o = .killed ∧ records t <+: (parting p.env).dropLast)) := by
  unfold Audit.Core.close at hr
  cases hp : st.plugin with
  | none =>
    rw [hp] at hr
    obtain ⟨rfl, rfl⟩ := hr.pure
    exact Or.inl ⟨rfl, rfl, rfl⟩
  | some p =>
    rw [hp] at hr
    simp only at hr
    refine Or.inr ⟨p, rfl, ?_⟩
    unfold Audit.close at hr
    cases hs : p.socket with
    | none =>
      rw [hs] at hr
      inv LRuns.psay_bind hr with ⟨t1, hr, rfl⟩
      obtain ⟨rfl, rfl⟩ := hr.pure
      exact Or.inl ⟨rfl, rfl, rfl⟩
    | some fd =>
      rw [hs] at hr
      refine Or.inr ?_
      have np : ∀ {h}, ¬ Runs (Socket.close fd) .panic h := by
        intro h hc
        rcases close_runs hc with ⟨h, _⟩ | ⟨_, h, _⟩ <;> exact absurd h (by simp)
      have step : ∀ {o t}, LRuns (do
          Audit.say p .trace (b! "pair session ending")
          L.lift (Socket.close fd)
          Audit.say p .info (b! "pair session ended")
          L.lift (Socket.close fd)
          exiting p) o t →
          (o = .ok () ∧ records t = parting p.env) ∨ (o = .killed ∧ records t <+: (parting p.env).dropLast) := by
        intro o t hr
        inv LRuns.psay_bind hr with ⟨t1, hr, rfl⟩
        inv LRuns.lift_bind hr with ⟨_, h1, t2, _, hr, rfl⟩ | ⟨rfl, h1, h, rfl⟩ | ⟨rfl, h1, _, rfl⟩
        · inv LRuns.psay_bind hr with ⟨t1, hr, rfl⟩
          inv LRuns.lift_bind hr with ⟨_, h2, t2, _, hr, rfl⟩ | ⟨rfl, h2, h, rfl⟩ | ⟨rfl, h2, _, rfl⟩
          · obtain ⟨rfl, rfl⟩ := LRuns.say hr
            refine Or.inl ⟨rfl, ?_⟩
            simp only [records, records_append, records_acts']
            rfl
          · exact absurd h np
          · refine Or.inr ⟨rfl, ?_⟩
            simp only [records, records_append, records_acts']
            exact List.prefix_refl _
        · exact absurd h np
        · refine Or.inr ⟨rfl, ?_⟩
          simp only [records, records_acts']
          exact ⟨[_], rfl⟩
      inv LRuns.bind hr with ⟨u, t1, t2, h1, hr, rfl⟩ | ⟨rfl, h1⟩ | ⟨rfl, h1⟩
      · obtain ⟨rfl, rfl⟩ := hr.pure
        rw [List.append_nil]
        rcases step h1 with ⟨_, h⟩ | ⟨h, _⟩
        · exact Or.inl ⟨by simp, rfl, h⟩
        · exact absurd h (by simp)
      · rcases step h1 with ⟨h, _⟩ | ⟨h, _⟩ <;> exact absurd h (by simp)
      · rcases step h1 with ⟨h, _⟩ | ⟨_, h⟩
        · exact absurd h (by simp)
        · exact Or.inr ⟨by simp, rfl, h⟩

/-- What `log_output` records. -/
theorem logOutput_trace {p : Pair} {buf : Bytes} {o t} (hr : LRuns (Audit.logOutput p buf) o t) :
    (o = .ok (.ok ()) ∧ records t = [sentNote p.env buf.length]) ∨ (o ≠ .ok (.ok ()) ∧ records t = []) := by
  unfold Audit.logOutput at hr
  inv LRuns.lift_bind hr with ⟨r, h1, t1, _, hr, rfl⟩ | ⟨rfl, h1, _, rfl⟩ | ⟨rfl, h1, _, rfl⟩
  · rw [records_append, records_acts', List.nil_append]
    rcases r with e | ⟨⟩
    · obtain ⟨rfl, rfl⟩ := hr.pure
      exact Or.inr ⟨by simp, rfl⟩
    · inv LRuns.psay_bind hr with ⟨t2, hr, rfl⟩
      obtain ⟨rfl, rfl⟩ := hr.pure
      refine Or.inl ⟨rfl, ?_⟩
      rw [decNat_eq_decimal]
      rfl
  · exact Or.inr ⟨by simp, records_acts' _⟩
  · exact Or.inr ⟨by simp, records_acts' _⟩

/-- Reporting the result makes no record. -/
theorem finish_trace {m : L (Except ErrorKind Unit)} {env : IoEnv} {o : Out Int} {t}
    (hr : LRuns (do let r ← L.catchUnwind (do let res ← m; L.lift (SudoPair.Core.finish env res)); pure (r.getD SudoPair.Core.LOG_DENY)) o t) :
    ∃ o' t', LRuns m o' t' ∧ records t = records t' ∧ (o' = .ok (.ok ()) → o = .ok 1) ∧ (o' ≠ .ok (.ok ()) → o ≠ .ok 1) := by
  have key : ∀ {o t}, LRuns (do let res ← m; L.lift (SudoPair.Core.finish env res)) o t →
      ∃ o' t', LRuns m o' t' ∧ records t = records t' ∧ (o' = .ok (.ok ()) → o = .ok 1) ∧ (o' ≠ .ok (.ok ()) → o ≠ .ok 1) := by
    intro o t hr
    inv LRuns.bind hr with ⟨res, t1, t2, h1, hr, rfl⟩ | ⟨rfl, h1⟩ | ⟨rfl, h1⟩
    · obtain ⟨h2, hf, rfl⟩ := hr.lift
      clear hr
      refine ⟨_, _, h1, by rw [records_append, show records (List.map Entry.sys h2) = [] from records_acts' h2, List.append_nil], ?_, ?_⟩
      · intro h
        simp only [Out.ok.injEq] at h; subst h
        exact hf.pure.1
      · intro h h'
        subst h'
        rcases res with e | ⟨⟩
        · unfold SudoPair.Core.finish at hf
          inv Runs.bind hf with ⟨b, h3, h4, hw, hf, rfl⟩ | ⟨h, _⟩ | ⟨h, _⟩
          · exact absurd hf.pure.1 (by simp [SudoPair.Core.LOG_DENY])
          · exact absurd h (by simp)
          · exact absurd h (by simp)
        · exact h rfl
    · exact ⟨_, _, h1, rfl, fun h => absurd h (by simp), fun _ => by simp⟩
    · exact ⟨_, _, h1, rfl, fun h => absurd h (by simp), fun _ => by simp⟩
  inv LRuns.bind hr with ⟨r, t1, t2, h1, hr, rfl⟩ | ⟨rfl, h1⟩ | ⟨rfl, h1⟩
  · obtain ⟨rfl, rfl⟩ := hr.pure
    rw [List.append_nil]
    rcases h1.catchUnwind with ⟨x, hx, h⟩ | ⟨hx, h⟩ | ⟨hx, _⟩
    · simp only [Out.ok.injEq] at hx; subst hx
      obtain ⟨o', t', h1, h2, h3, h4⟩ := key h
      refine ⟨o', t', h1, h2, fun h => ?_, fun h h' => h4 h ?_⟩
      · have := h3 h; simp only [Out.ok.injEq] at this; rw [this]; rfl
      · simpa using h'
    · simp only [Out.ok.injEq] at hx; subst hx
      obtain ⟨o', t', h1, h2, h3, h4⟩ := key h
      exact ⟨o', t', h1, h2, fun h => absurd (h3 h) (by simp), fun h => by simp [SudoPair.Core.LOG_DENY]⟩
    · exact absurd hx (by simp)
  · rcases h1.catchUnwind with ⟨x, hx, h⟩ | ⟨hx, h⟩ | ⟨hx, _⟩ <;> exact absurd hx (by simp)
  · rcases h1.catchUnwind with ⟨x, hx, h⟩ | ⟨hx, h⟩ | ⟨_, h⟩
    · exact absurd hx (by simp)
    · exact absurd hx (by simp)
    · obtain ⟨o', t', h1, h2, h3, h4⟩ := key h
      exact ⟨o', t', h1, h2, fun h => absurd (h3 h) (by simp), fun h => by simp⟩

/-- **C75.**  What the `log_*` callbacks record.  Output that was asked for and accepted: how many bytes it was, and
nothing else of it.  Redirected input that was asked for: the decision about the session, unless an
assertion of a debug build trips.  Otherwise nothing. -/
theorem C75_log {rt : Rt} {f : Facility} {buf : Bytes} {st : State} {o t} (hr : LRuns (Audit.Core.log rt f buf st) o t) :
    ((st.env = none ∨ st.plugin = none) ∧ records t = []) ∨
    ∃ E p, st.env = some E ∧ st.plugin = some p ∧
      ((¬ Wanted E f ∧ records t = []) ∨
       (Wanted E f ∧
        ((f = .ttyin ∧ records t = []) ∨
         (Shown f ∧ o = .ok 1 ∧ records t = [sentNote p.env buf.length]) ∨
         (Shown f ∧ o ≠ .ok 1 ∧ records t = []) ∨
         (f = .stdin ∧ (rt.debug = true ∧ Trips p.env p.options) ∧ records t = []) ∨
         (f = .stdin ∧ ¬ (rt.debug = true ∧ Trips p.env p.options) ∧ ∃ msg own, First (reasons p.env p.options) (msg, own) ∧ records t = [about p.env .debug msg own])))) := by
  rcases st with ⟨_ | E, pl⟩
  · obtain ⟨s, rfl, rfl⟩ := hr; exact Or.inl ⟨Or.inl rfl, rfl⟩
  rcases pl with _ | p
  · obtain ⟨s, rfl, rfl⟩ := hr; exact Or.inl ⟨Or.inr rfl, rfl⟩
  refine Or.inr ⟨E, p, rfl, rfl, ?_⟩
  unfold Audit.Core.log at hr
  simp only [lift_some_bind] at hr
  by_cases hw : SudoPair.Core.hint E.commandInfo f = true
  · refine Or.inr ⟨(hint_iff E f).1 hw, ?_⟩
    rw [hw] at hr
    simp only [Bool.not_true, Bool.false_eq_true, if_false] at hr
    obtain ⟨o', t', h1, h2, h3, h4⟩ := finish_trace hr
    rw [h2]
    have out : LRuns (Audit.logOutput p buf) o' t' → Shown f →
        (Shown f ∧ o = .ok 1 ∧ records t' = [sentNote p.env buf.length]) ∨ (Shown f ∧ o ≠ .ok 1 ∧ records t' = []) := by
      intro h hf
      rcases logOutput_trace h with ⟨h5, h6⟩ | ⟨h5, h6⟩
      · exact Or.inl ⟨hf, h3 h5, h6⟩
      · exact Or.inr ⟨hf, h4 h5, h6⟩
    cases f with
    | ttyin => exact Or.inl ⟨rfl, by rw [h1.pure.2]; rfl⟩
    | ttyout => rcases out h1 trivial with h | h <;> [exact Or.inr (Or.inl h); exact Or.inr (Or.inr (Or.inl h))]
    | stdout => rcases out h1 trivial with h | h <;> [exact Or.inr (Or.inl h); exact Or.inr (Or.inr (Or.inl h))]
    | stderr => rcases out h1 trivial with h | h <;> [exact Or.inr (Or.inl h); exact Or.inr (Or.inr (Or.inl h))]
    | stdin =>
      refine Or.inr (Or.inr (Or.inr ?_))
      replace h1 : LRuns (Audit.logStdin rt p) o' t' := h1
      unfold Audit.logStdin at h1
      have none : ∀ {o t}, LRuns (Audit.isExempt rt.debug p) o t → (p.isExempt rt.debug = none ∧ records t = []) ∨
          p.isExempt rt.debug ≠ none ∧ ∃ msg own, First (reasons p.env p.options) (msg, own) ∧ records t = [about p.env .debug msg own] := by
        intro o t h
        rcases isExempt_trace h with ⟨_, h5, h6⟩ | ⟨b, msg, own, _, _, h5, h6, _⟩
        · exact Or.inl ⟨h5, h6⟩
        · exact Or.inr ⟨by simp [*], msg, own, h6, h5⟩
      have : ∃ o t, LRuns (Audit.isExempt rt.debug p) o t ∧ records t' = records t := by
        inv LRuns.bind h1 with ⟨b, t1, t2, h5, h1, rfl⟩ | ⟨rfl, h5⟩ | ⟨rfl, h5⟩
        · refine ⟨_, _, h5, ?_⟩
          rw [records_append]
          cases b <;> (rw [h1.pure.2]; exact List.append_nil _)
        · exact ⟨_, _, h5, rfl⟩
        · exact ⟨_, _, h5, rfl⟩
      obtain ⟨o2, t2, h5, h6⟩ := this
      rw [h6]
      rcases none h5 with ⟨h, h'⟩ | ⟨h, h'⟩
      · exact Or.inl ⟨rfl, undecided_iff.1 h, h'⟩
      · exact Or.inr ⟨rfl, fun ht => h (undecided_iff.2 ht), h'⟩
  · refine Or.inl ⟨fun h => hw ((hint_iff E f).2 h), ?_⟩
    simp only [hw, Bool.not_false, if_true] at hr
    obtain ⟨s, rfl, rfl⟩ := hr
    rfl

/-- **C75.**  `change_winsize` records how many bytes it sent, if it succeeds. -/
theorem C75_winsize {lines cols : Nat} {st : State} {o t} (hr : LRuns (Audit.Core.changeWinsize lines cols st) o t) :
    (o ≠ .ok 1 ∧ records t = []) ∨
    ∃ p, st.plugin = some p ∧ o = .ok 1 ∧ records t =
      [sentNote p.env (27 :: b! "[8;" ++ decimal lines ++ b! ";" ++ decimal cols ++ b! "t").length] := by
  rcases st with ⟨_ | E, pl⟩
  · obtain ⟨s, rfl, rfl⟩ := hr; exact Or.inl ⟨by simp [Audit.Core.changeWinsize, L.bind_def, L.catchUnwind, L.lift, M.ofOption, M.panic, Pure.pure, L.pure, SudoPair.Core.LOG_DENY], rfl⟩
  rcases pl with _ | p
  · obtain ⟨s, rfl, rfl⟩ := hr; exact Or.inl ⟨by simp [Audit.Core.changeWinsize, L.bind_def, L.catchUnwind, L.lift, M.ofOption, M.panic, M.pure, Pure.pure, L.pure, SudoPair.Core.LOG_DENY], rfl⟩
  unfold Audit.Core.changeWinsize at hr
  simp only [lift_some_bind] at hr
  obtain ⟨o', t', h1, h2, h3, h4⟩ := finish_trace hr
  rw [h2]
  rcases logOutput_trace h1 with ⟨h5, h6⟩ | ⟨h5, h6⟩
  · refine Or.inr ⟨p, rfl, h3 h5, ?_⟩
    rw [h6]
    unfold Pair.winsizeSeq
    simp only [decNat_eq_decimal]
  · exact Or.inl ⟨h4 h5, h6⟩

/-- **C75.**  `show_version` records nothing. -/
theorem C75_version {rt : Rt} {st : State} {o t} (hr : LRuns (Audit.Core.step rt .showVersion st) o t) :
    records t = [] := by
  replace hr : LRuns (do let r ← L.lift (SudoPair.Core.showVersion st); pure (r, st)) o t := hr
  inv LRuns.lift_bind hr with ⟨r, h1, t1, _, hr, rfl⟩ | ⟨rfl, h1, _, rfl⟩ | ⟨rfl, h1, _, rfl⟩
  · rw [records_append, records_acts', hr.pure.2]; rfl
  · exact records_acts' _
  · exact records_acts' _

/-! ### The recorded answer -/

theorem deeds_append (t u : List Audit.Entry) : deeds (t ++ u) = deeds t ++ deeds u := by
  induction t with
  | nil => rfl
  | cons e t ih => cases e <;> simp [deeds, ih]

theorem deeds_acts (h : Hist) : deeds (acts h) = h := by
  induction h with
  | nil => rfl
  | cons e h ih =>
    show e :: deeds (acts h) = _
    rw [ih]

theorem echoed_nil : Echoed [] := by
  intro pre r post h
  exact absurd h (by simp)

theorem echoed_append {t u : List Audit.Entry} (ht : Echoed t) (hu : Echoed u) : Echoed (t ++ u) := by
  intro pre r post h hm
  rcases List.append_eq_append_iff.1 h with ⟨x, rfl, rfl⟩ | ⟨x, rfl, h2⟩
  · obtain ⟨ans, E, h1, h2⟩ := hu x r post rfl hm
    refine ⟨ans, E, ?_, h2⟩
    rw [deeds_append, answers_append, List.getLast?_append, h1]
    rfl
  · cases x with
    | nil =>
      obtain ⟨ans, E, h1, h2⟩ := hu [] r post h2.symm hm
      exact absurd h1 (by simp [deeds, answers])
    | cons y x =>
      simp only [List.cons_append, List.cons.injEq] at h2
      obtain ⟨rfl, rfl⟩ := h2
      exact ht pre r x rfl hm

theorem echoed_acts (h : Hist) : Echoed (acts h) := by
  intro pre r post hh _
  have : Audit.Entry.note r ∈ acts h := by rw [hh]; simp
  obtain ⟨x, _, hx⟩ := List.mem_map.1 this
  exact absurd hx (by simp)

/-- Code whose recorded answers are what was read. -/
def Echo (m : L α) : Prop := ∀ {o t}, LRuns m o t → Echoed t

theorem echo_pure (a : α) : Echo (pure a : L α) := by
  intro o t h
  rw [h.pure.2]; exact echoed_nil

theorem echo_lift (m : M α) : Echo (L.lift m) := by
  intro o t h
  obtain ⟨h', _, rfl⟩ := h.lift
  exact echoed_acts h'

theorem echo_say {ctx : Fields} {l : Level} {m : Bytes} {own : Fields} (hm : m ≠ b! "remote pair responded") :
    Echo (L.say ctx l m own) := by
  intro o t h
  obtain ⟨_, rfl⟩ := LRuns.say h
  intro pre r post h hr
  cases pre with
  | nil =>
    simp only [List.nil_append, List.cons.injEq, Audit.Entry.note.injEq] at h
    exact absurd (by rw [← hr, ← h.1]) hm
  | cons x pre => exact absurd (congrArg List.length h) (by simp)

theorem echo_bind {m : L α} {f : α → L β} (hm : Echo m) (hf : ∀ a, Echo (f a)) : Echo (m >>= f) := by
  intro o t h
  rcases h.bind with ⟨a, t1, t2, h1, h2, rfl⟩ | ⟨rfl, h1⟩ | ⟨rfl, h1⟩
  · exact echoed_append (hm h1) (hf a h2)
  · exact hm h1
  · exact hm h1

theorem echo_ite {c : Prop} [Decidable c] {m n : L α} (hm : Echo m) (hn : Echo n) : Echo (if c then m else n) := by
  split <;> assumption

theorem echo_catch {m : L α} (hm : Echo m) : Echo (L.catchUnwind m) := by
  intro o t h
  rcases h.catchUnwind with ⟨_, _, h⟩ | ⟨_, h⟩ | ⟨_, h⟩ <;> exact hm h

theorem echo_unwind {m : L α} {c : L Unit} (hm : Echo m) (hc : Echo c) : Echo (L.onUnwind m c) := by
  intro o t h
  rcases h.onUnwind with ⟨h, _⟩ | ⟨t1, t2, o2, h1, h2, rfl, _⟩
  · exact hm h
  · exact echoed_append (hm h1) (hc h2)

theorem echo_psay {p : Pair} {l : Level} {m : Bytes} {own : Fields} (hm : m ≠ b! "remote pair responded") :
    Echo (Audit.say p l m own) := echo_say hm

theorem echo_exiting (p : Pair) : Echo (exiting p) := echo_psay (by decide)

theorem echo_isExempt (debug : Bool) (p : Pair) : Echo (Audit.isExempt debug p) := by
  unfold Audit.isExempt
  refine echo_ite (echo_bind (echo_psay (by decide)) fun _ => echo_pure _) (echo_bind (echo_lift _) fun _ => ?_)
  refine echo_ite (echo_bind (echo_psay (by decide)) fun _ => echo_pure _) ?_
  refine echo_ite (echo_bind (echo_psay (by decide)) fun _ => echo_pure _) ?_
  refine echo_ite (echo_bind (echo_psay (by decide)) fun _ => echo_pure _) ?_
  refine echo_ite (echo_bind (echo_psay (by decide)) fun _ => echo_pure _) (echo_bind (echo_lift _) fun _ => ?_)
  exact echo_ite (echo_bind (echo_psay (by decide)) fun _ => echo_pure _)
    (echo_bind (echo_psay (by decide)) fun _ => echo_pure _)

theorem echo_localPrompt (p : Pair) (spec : TemplateSpec) : Echo (Audit.localPairPrompt p spec) := by
  unfold Audit.localPairPrompt
  refine echo_bind (echo_lift _) fun _ => echo_bind (echo_psay (by decide)) fun _ =>
    echo_bind (echo_psay (by decide)) fun _ => echo_bind (echo_lift _) fun _ => echo_ite (echo_psay (by decide)) ?_
  exact echo_bind (echo_lift _) fun _ => echo_psay (by decide)

theorem echo_connect (rt : Rt) (p : Pair) : Echo (Audit.remotePairConnect rt p) := by
  unfold Audit.remotePairConnect Audit.initializing
  refine echo_bind (echo_ite (echo_bind (echo_lift _) fun _ => echo_say (by decide)) (echo_pure _)) fun _ =>
    echo_bind (echo_say (by decide)) fun _ => echo_bind (echo_lift _) fun _ => echo_bind (echo_lift _) fun c => ?_
  cases c with
  | none => exact echo_pure _
  | some c => exact echo_bind (echo_say (by decide)) fun _ => echo_pure _

theorem echo_remotePrompt (p : Pair) (spec : TemplateSpec) (fd : Nat) : Echo (Audit.remotePairPrompt p spec fd) := by
  unfold Audit.remotePairPrompt
  refine echo_bind (echo_lift _) fun _ => echo_bind (echo_psay (by decide)) fun _ =>
    echo_bind (echo_psay (by decide)) fun _ => echo_bind (echo_lift _) fun _ => echo_ite ?_ (echo_pure _)
  refine echo_bind (echo_lift _) fun _ => echo_ite ?_ (echo_pure _)
  refine echo_bind (echo_psay (by decide)) fun _ => echo_bind (echo_psay (by decide)) fun _ => ?_
  -- the answer
  intro o t hr
  inv LRuns.lift_bind hr with ⟨w, h1, t1, h, hr, rfl⟩ | ⟨rfl, h1, _, rfl⟩ | ⟨rfl, h1, _, rfl⟩
  case inr.inl => exact echoed_acts _
  case inr.inr => exact echoed_acts _
  obtain ⟨o', hg, ho⟩ := read_runs h
  cases hb : Pair.responseByte w with
  | none =>
    rw [hb] at hr
    rw [hr.pure.2, List.append_nil]
    exact echoed_acts _
  | some b =>
    rw [hb] at hr
    have ha : ∃ c, answers h1 = [c] ∧ heard c = b := by
      rcases ho with ⟨_, h⟩ | ⟨rfl, h⟩ | ⟨r, rfl, h⟩
      · exact absurd h (by simp)
      · simp only [Out.ok.injEq] at h; subst h; exact absurd hb (by simp [Pair.responseByte])
      · simp only [Out.ok.injEq] at h; subst h
        cases hg with
        | done old _ =>
          rcases w with ⟨_ | ⟨c, _⟩, _⟩ | _ | _
          · exact ⟨none, rfl, by simpa [Pair.responseByte, heard] using hb⟩
          · exact ⟨some c, rfl, by simpa [Pair.responseByte, heard] using hb⟩
          · exact absurd hb (by simp [Pair.responseByte])
          · exact absurd hb (by simp [Pair.responseByte])
    obtain ⟨c, ha, rfl⟩ := ha
    inv LRuns.psay_bind hr with ⟨t2, hr, rfl⟩
    have hrest : Echoed t2 := by
      refine (echo_bind (echo_lift _) fun _ => echo_bind (echo_lift _) fun _ => echo_ite ?_ ?_ :
        Echo _) hr
      · exact echo_bind (echo_psay (by decide)) fun _ => echo_pure _
      · exact echo_bind (echo_psay (by decide)) fun _ => echo_pure _
    rw [show ∀ (x : Audit.Entry) (a b : List Audit.Entry), a ++ x :: b = (a ++ [x]) ++ b from fun x a b => by simp]
    refine echoed_append ?_ hrest
    intro pre r post hh hm
    rcases List.append_eq_append_iff.1 hh with ⟨x, rfl, h2⟩ | ⟨x, h1', h2⟩
    · cases x with
      | nil =>
        simp only [List.nil_append, List.cons.injEq, Audit.Entry.note.injEq] at h2
        refine ⟨c, p.env, ?_, h2.1.symm⟩
        rw [List.append_nil, deeds_acts, ha]
        rfl
      | cons y x => exact absurd (congrArg List.length h2) (by simp)
    · cases x with
      | nil =>
        simp only [List.nil_append, List.cons.injEq, Audit.Entry.note.injEq] at h2
        rw [List.append_nil] at h1'
        refine ⟨c, p.env, ?_, h2.1⟩
        rw [← h1', deeds_acts, ha]
        rfl
      | cons y x =>
        simp only [List.cons_append, List.cons.injEq] at h2
        obtain ⟨rfl, _⟩ := h2
        exact echoed_acts h1 pre r x h1' hm

theorem echo_open (rt : Rt) (E : IoEnv) : Echo (Audit.open rt E) := by
  unfold Audit.open
  refine echo_bind (echo_say (by decide)) fun _ => echo_bind (echo_psay (by decide)) fun _ => ?_
  unfold Audit.openPair
  refine echo_bind (echo_unwind (echo_isExempt _ _) (echo_exiting _)) fun _ => echo_ite ?_ ?_
  · exact echo_bind (echo_psay (by decide)) fun _ => echo_pure _
  refine echo_bind (echo_psay (by decide)) fun _ => echo_ite ?_ ?_
  · exact echo_bind (echo_psay (by decide)) fun _ => echo_bind (echo_exiting _) fun _ => echo_pure _
  refine echo_bind (echo_unwind (echo_localPrompt _ _) (echo_exiting _)) fun _ =>
    echo_bind (echo_unwind (echo_connect _ _) (echo_exiting _)) fun c => ?_
  cases c with
  | error e => exact echo_bind (echo_exiting _) fun _ => echo_pure _
  | ok fd =>
    refine echo_unwind (echo_bind (echo_remotePrompt _ _ _) fun r => ?_)
      (echo_bind (echo_exiting _) fun _ => echo_lift _)
    cases r with
    | ok u => exact echo_bind (echo_psay (by decide)) fun _ => echo_pure _
    | error e => exact echo_bind (echo_exiting _) fun _ => echo_bind (echo_lift _) fun _ => echo_pure _

theorem echo_logOutput (p : Pair) (buf : Bytes) : Echo (Audit.logOutput p buf) := by
  unfold Audit.logOutput
  refine echo_bind (echo_lift _) fun r => ?_
  cases r with
  | error e => exact echo_pure _
  | ok u =>
    refine echo_bind (echo_psay ?_) fun _ => echo_pure _
    intro h
    exact absurd (congrArg List.head? h) (by simp)

theorem echo_step (rt : Rt) (c : SudoPair.Core.Call) (st : State) : Echo (Audit.Core.step rt c st) := by
  cases c with
  | «open» a =>
    unfold Audit.Core.step Audit.Core.open
    refine echo_bind (echo_lift _) fun x => ?_
    rcases x with _ | _ | env0
    · exact echo_pure _
    · exact echo_pure _
    refine echo_bind (echo_catch ?_) fun x => ?_
    · unfold Audit.Core.makePlugin
      refine echo_ite (echo_pure _) (echo_bind (echo_open _ _) fun r => ?_)
      cases r with
      | ok p => exact echo_pure _
      | error e => exact echo_bind (echo_lift _) fun _ => echo_pure _
    · rcases x with _ | _ | p
      · exact echo_pure _
      · exact echo_pure _
      simp only
      cases st.plugin with
      | none => exact echo_pure _
      | some q => exact echo_bind (echo_bind (echo_exiting _) fun _ => echo_lift _) fun _ => echo_pure _
  | close =>
    refine echo_bind ?_ fun _ => echo_pure _
    unfold Audit.Core.close
    cases st.plugin with
    | none => exact echo_pure _
    | some p =>
      refine echo_bind ?_ fun _ => echo_pure _
      unfold Audit.close
      cases p.socket with
      | none => exact echo_exiting _
      | some fd =>
        exact echo_bind (echo_psay (by decide)) fun _ => echo_bind (echo_lift _) fun _ =>
          echo_bind (echo_psay (by decide)) fun _ => echo_bind (echo_lift _) fun _ => echo_exiting _
  | showVersion => exact echo_bind (echo_lift _) fun _ => echo_pure _
  | log f buf =>
    refine echo_bind ?_ fun _ => echo_pure _
    unfold Audit.Core.log
    refine echo_bind (echo_catch (echo_bind (echo_lift _) fun env => echo_bind (echo_lift _) fun p => echo_ite (echo_pure _)
      (echo_bind ?_ fun _ => echo_lift _))) fun _ => echo_pure _
    cases f with
    | ttyin => exact echo_pure _
    | ttyout => exact echo_logOutput _ _
    | stdout => exact echo_logOutput _ _
    | stderr => exact echo_logOutput _ _
    | stdin => exact echo_bind (echo_isExempt _ _) fun _ => echo_ite (echo_pure _) (echo_pure _)
  | changeWinsize l c =>
    refine echo_bind ?_ fun _ => echo_pure _
    unfold Audit.Core.changeWinsize
    exact echo_bind (echo_catch (echo_bind (echo_lift _) fun env => echo_bind (echo_lift _) fun p =>
      echo_bind (echo_logOutput _ _) fun _ => echo_lift _)) fun _ => echo_pure _

/-- **C75.**  In every history of callbacks: an answer that is recorded is the one that was read last before the
record was made (`n` if the pair hung up). -/
theorem C75_answer {rt : Rt} {cs : List SudoPair.Core.Call} {st : State} {o t}
    (hr : LRuns (Audit.Core.run rt cs st) o t) : Echoed t := by
  have : ∀ cs st, Echo (Audit.Core.run rt cs st) := by
    intro cs
    induction cs with
    | nil => exact fun st => echo_pure _
    | cons c cs ih => exact fun st => echo_bind (echo_step rt c st) fun _ => echo_bind (ih _) fun _ => echo_pure _
  exact this cs st hr

/-! ### Sessions that begin and are given up -/

/-- The records with the message `m`. -/
abbrev cnt (m : Bytes) (l : List Record) : Nat := l.countP (·.msg = m)

theorem begun_append (t u : List Audit.Entry) : begun (t ++ u) = begun t + begun u := by
  simp [begun, records_append]
theorem left_append (t u : List Audit.Entry) : Spec.left (t ++ u) = Spec.left t + Spec.left u := by
  simp [Spec.left, records_append]

theorem cnt_append (m : Bytes) (k l : List Record) : cnt m (k ++ l) = cnt m k + cnt m l := List.countP_append ..

theorem first_mem {α : Type} {l : List (Prop × α)} {m : α} (h : First l m) : m ∈ l.map (·.2) := by
  induction h with
  | here => simp
  | later _ _ _ _ _ _ ih => exact List.mem_cons_of_mem _ ih

theorem reason_text {E : IoEnv} {o : PluginOptions} {msg : Bytes} {own : Fields} (h : First (reasons E o) (msg, own)) :
    msg ≠ b! "plugin initializing" ∧ msg ≠ b! "plugin exiting" := by
  have := first_mem h
  simp only [reasons, List.map_cons, List.map_nil, List.mem_cons, Prod.mk.injEq, List.not_mem_nil, or_false] at this
  rcases this with ⟨h, _⟩ | ⟨h, _⟩ | ⟨h, _⟩ | ⟨h, _⟩ | ⟨h, _⟩ | ⟨h, _⟩ | ⟨h, _⟩ <;> rw [h] <;> decide

theorem cnt_course {detailed : Bool} {E : IoEnv} {o : PluginOptions} {path : Bytes} {g b full}
    (h : Course detailed E o path g b full) : cnt (b! "plugin initializing") full = 1 ∧ cnt (b! "plugin exiting") full = 0 := by
  have pr : cnt (b! "plugin initializing") (prologue E o) = 1 ∧ cnt (b! "plugin exiting") (prologue E o) = 0 := by
    constructor <;> simp [cnt, prologue, beginning, about]
  have as : ∀ b, cnt (b! "plugin initializing") (asked detailed E o path b) = 1 ∧
      cnt (b! "plugin exiting") (asked detailed E o path b) = 0 := by
    intro b
    unfold asked waiting
    simp only [cnt_append, pr.1, pr.2]
    cases detailed <;>
      simp [cnt, prompting, asking, about, socketNote, response]
  cases h with
  | exempt msg own hf _ =>
    have := reason_text hf
    simp only [cnt_append, pr.1, pr.2]
    simp [cnt, about, this.1, this.2]
  | conflict =>
    simp only [cnt_append, pr.1, pr.2]
    simp [cnt, about]
  | approved b =>
    simp only [cnt_append, (as b).1, (as b).2]
    simp [cnt, about]
  | declined b =>
    simp only [cnt_append, (as b).1, (as b).2]
    simp [cnt, about]

theorem cnt_part {detailed : Bool} {E : IoEnv} {o : PluginOptions} {path : Bytes} {g b full pre}
    (h : Course detailed E o path g b full) (h1 : prologue E o <+: pre) (h2 : pre <+: full) :
    cnt (b! "plugin initializing") pre = 1 ∧ cnt (b! "plugin exiting") pre = 0 := by
  have hc := cnt_course h
  have a := h1.sublist.countP_le (p := fun r : Record => r.msg = b! "plugin initializing")
  have b := h2.sublist.countP_le (p := fun r : Record => r.msg = b! "plugin initializing")
  have c := h2.sublist.countP_le (p := fun r : Record => r.msg = b! "plugin exiting")
  have d : cnt (b! "plugin initializing") (prologue E o) = 1 := by
    simp [cnt, prologue, beginning, about]
  unfold cnt at hc d ⊢
  omega

theorem cnt_leaving (E : IoEnv) : cnt (b! "plugin initializing") [leaving E] = 0 ∧ cnt (b! "plugin exiting") [leaving E] = 1 := by
  constructor <;> simp [cnt, leaving, about]

theorem step_lifecycle {rt : Rt} {c : SudoPair.Core.Call} {st : State} {o t}
    (hr : LRuns (Audit.Core.step rt c st) o t) :
    Spec.left t ≤ begun t + present st ∧
    ∀ r st', o = .ok (r, st') → begun t + present st = Spec.left t + present st' := by
  have hb : begun t = cnt (b! "plugin initializing") (records t) := rfl
  have hl : Spec.left t = cnt (b! "plugin exiting") (records t) := rfl
  have quiet : ∀ {α : Type} {m : L α} {f : α → Int}, LRuns (do let r ← m; pure (f r, st)) o t →
      cnt (b! "plugin initializing") (records t) = 0 → cnt (b! "plugin exiting") (records t) = 0 →
      Spec.left t ≤ begun t + present st ∧
        ∀ r st', o = .ok (r, st') → begun t + present st = Spec.left t + present st' := by
    intro α m f h h1 h2
    rw [hb, hl, h1, h2]
    refine ⟨Nat.zero_le _, ?_⟩
    rintro r st' rfl
    rcases h.bind with ⟨a, t1, t2, _, h2, _⟩ | ⟨h, _⟩ | ⟨h, _⟩
    · have := h2.pure.1
      simp only [Out.ok.injEq, Prod.mk.injEq] at this
      rw [this.2]
    · exact absurd h (by simp)
    · exact absurd h (by simp)
  have said : ∀ (E : IoEnv) (n : Nat), cnt (b! "plugin initializing") [sentNote E n] = 0 ∧
      cnt (b! "plugin exiting") [sentNote E n] = 0 := by
    intro E n
    constructor <;> simp [cnt, sentNote, about]
  -- what a callback does before it hands back the old state
  have inner : ∀ {α : Type} {m : L α} {f : α → Int}, LRuns (do let r ← m; pure (f r, st)) o t →
      ∃ o', LRuns m o' t := by
    intro α m f h
    rcases h.bind with ⟨a, t1, t2, h1, h2, rfl⟩ | ⟨_, h⟩ | ⟨_, h⟩
    · rw [h2.pure.2, List.append_nil]; exact ⟨_, h1⟩
    · exact ⟨_, h⟩
    · exact ⟨_, h⟩
  cases c with
  | showVersion =>
    have h0 := C75_version hr
    exact quiet (f := id) (show LRuns (do let r ← L.lift (SudoPair.Core.showVersion st); pure (r, st)) o t from hr)
      (by rw [h0]; rfl) (by rw [h0]; rfl)
  | changeWinsize l c =>
    replace hr : LRuns (do let r ← Audit.Core.changeWinsize l c st; pure (r, st)) o t := hr
    obtain ⟨o', h⟩ := inner (f := id) hr
    refine quiet (f := id) hr ?_ ?_ <;> rcases C75_winsize h with ⟨_, h⟩ | ⟨p, _, _, h⟩ <;> rw [h]
    · rfl
    · exact (said _ _).1
    · rfl
    · exact (said _ _).2
  | log f buf =>
    replace hr : LRuns (do let r ← Audit.Core.log rt f buf st; pure (r, st)) o t := hr
    obtain ⟨o', h⟩ := inner (f := id) hr
    have key : cnt (b! "plugin initializing") (records t) = 0 ∧ cnt (b! "plugin exiting") (records t) = 0 := by
      rcases C75_log h with ⟨_, h⟩ | ⟨E, p, _, _, ⟨_, h⟩ | ⟨_, ⟨_, h⟩ | ⟨_, _, h⟩ | ⟨_, _, h⟩ | ⟨_, _, h⟩ | ⟨_, _, m, own, hf, h⟩⟩⟩ <;> rw [h]
      · exact ⟨rfl, rfl⟩
      · exact ⟨rfl, rfl⟩
      · exact ⟨rfl, rfl⟩
      · exact said _ _
      · exact ⟨rfl, rfl⟩
      · exact ⟨rfl, rfl⟩
      · have := reason_text hf
        constructor <;> simp [cnt, about, this.1, this.2]
    exact quiet (f := id) hr key.1 key.2
  | close =>
    replace hr : LRuns (do let st ← Audit.Core.close st; pure ((0 : Int), st)) o t := hr
    have key : ∀ {o t}, LRuns (Audit.Core.close st) o t → begun t = 0 ∧ Spec.left t ≤ present st ∧
        ∀ st', o = .ok st' → present st' = 0 ∧ Spec.left t = present st := by
      intro o t h
      have hb : begun t = cnt (b! "plugin initializing") (records t) := rfl
      have hl : Spec.left t = cnt (b! "plugin exiting") (records t) := rfl
      rw [hb, hl]
      rcases C75_close h with ⟨h1, rfl, h2⟩ | ⟨p, h1, ⟨_, rfl, h2⟩ | ⟨_, rfl, h2⟩ | ⟨_, rfl, h2⟩⟩
      · rw [h2]
        refine ⟨rfl, Nat.zero_le _, fun st' h => ?_⟩
        simp only [Out.ok.injEq] at h; subst h
        exact ⟨rfl, by simp [present, h1]⟩
      · rw [h2, (cnt_leaving _).1, (cnt_leaving _).2]
        refine ⟨rfl, by simp [present, h1], fun st' h => ?_⟩
        simp only [Out.ok.injEq] at h; subst h
        exact ⟨rfl, by simp [present, h1]⟩
      · have h3 : cnt (b! "plugin initializing") (parting p.env) = 0 ∧ cnt (b! "plugin exiting") (parting p.env) = 1 := by
          constructor <;> simp [cnt, parting, leaving, about]
        rw [h2, h3.1, h3.2]
        refine ⟨rfl, by simp [present, h1], fun st' h => ?_⟩
        simp only [Out.ok.injEq] at h; subst h
        exact ⟨rfl, by simp [present, h1]⟩
      · have h3 : cnt (b! "plugin initializing") (parting p.env).dropLast = 0 ∧ cnt (b! "plugin exiting") (parting p.env).dropLast = 0 := by
          constructor <;> simp [cnt, parting, leaving, about]
        have a := h2.sublist.countP_le (p := fun r : Record => r.msg = b! "plugin initializing")
        have b := h2.sublist.countP_le (p := fun r : Record => r.msg = b! "plugin exiting")
        unfold cnt at h3 ⊢
        exact ⟨by omega, by omega, fun _ h => absurd h (by simp)⟩
    inv LRuns.bind hr with ⟨st1, t1, t2, h1, hr, rfl⟩ | ⟨rfl, h1⟩ | ⟨rfl, h1⟩
    · obtain ⟨rfl, rfl⟩ := hr.pure
      rw [List.append_nil]
      obtain ⟨k1, k2, k3⟩ := key h1
      refine ⟨by omega, fun r st' h => ?_⟩
      simp only [Out.ok.injEq, Prod.mk.injEq] at h
      obtain ⟨k4, k5⟩ := k3 st' (by rw [h.2])
      omega
    · obtain ⟨k1, k2, k3⟩ := key h1
      exact ⟨by omega, fun _ _ h => absurd h (by simp)⟩
    · obtain ⟨k1, k2, k3⟩ := key h1
      exact ⟨by omega, fun _ _ h => absurd h (by simp)⟩
  | «open» a =>
    replace hr : LRuns (Audit.Core.open rt a st) o t := hr
    have he := hr.erase
    rw [show L.erase (Audit.Core.open rt a st) = SudoPair.Core.open rt a st from erase_step rt (.open a) st] at he
    have he := coreOpen_runs he
    have same : ∀ r st', o = .ok (r, st') → present st' = present st ∨
        (r = 1 ∧ ∃ env0, IoEnv.new rt a = some (.ok env0) ∧ (effEnv st env0).commandInfo.command ≠ []) := by
      rintro r st' rfl
      generalize events t = ev at he
      cases he with
      | accepted h1 h2 => exact Or.inr ⟨rfl, _, h1, h2⟩
      | _ => exact Or.inl rfl
    rw [hb, hl]
    have stops : ∀ {E : IoEnv} {pre}, cnt (b! "plugin initializing") pre = 1 ∧ cnt (b! "plugin exiting") pre = 0 →
        cnt (b! "plugin initializing") (pre ++ [leaving E]) = 1 ∧ cnt (b! "plugin exiting") (pre ++ [leaving E]) = 1 := by
      intro E pre h
      rw [cnt_append, cnt_append, h.1, h.2, (cnt_leaving E).1, (cnt_leaving E).2]
      exact ⟨rfl, rfl⟩
    have even : cnt (b! "plugin initializing") (records t) = 1 ∧ cnt (b! "plugin exiting") (records t) = 1 →
        (∃ st', o = .ok (-1, st')) →
        cnt (b! "plugin exiting") (records t) ≤ cnt (b! "plugin initializing") (records t) + present st ∧
        ∀ r st', o = .ok (r, st') → cnt (b! "plugin initializing") (records t) + present st =
          cnt (b! "plugin exiting") (records t) + present st' := by
      rintro ⟨h1, h2⟩ ⟨st1, rfl⟩
      rw [h1, h2]
      refine ⟨by omega, fun r st' h => ?_⟩
      rcases same r st' h with h3 | ⟨h3, _⟩
      · omega
      · subst h3; exact absurd h (by simp)
    rcases coreOpen_trace hr with ⟨hno, h⟩ | ⟨env0, E, h1, rfl, h2, ⟨_, h3, h4⟩ | ⟨_, ⟨st1, b, full, rfl, h4, h5, h6⟩ | ⟨h3, g, b, full, pre, h4, h5, h6, _, h7⟩ | ⟨rfl, g, b, full, pre, h4, h5, h6, h7⟩⟩⟩
    · rw [h]
      refine ⟨Nat.zero_le _, fun r st' h => ?_⟩
      rcases same r st' h with h3 | ⟨_, env0, h3, h4⟩
      · rw [h3]; rfl
      · rcases hno with h5 | ⟨env1, h5, h6⟩
        · exact absurd h3 (h5 _)
        · rw [h3] at h5; cases h5; exact absurd h6 h4
    · refine even ?_ h3
      rw [h4]
      exact stops ⟨by simp [cnt, prologue, beginning, about], by simp [cnt, prologue, beginning, about]⟩
    · have hc := cnt_course h5
      rw [h6, cnt_append, cnt_append, hc.1, hc.2]
      have h8 : cnt (b! "plugin initializing") (if st.plugin.isSome = true then [leaving (effEnv st env0)] else []) = 0 ∧
          cnt (b! "plugin exiting") (if st.plugin.isSome = true then [leaving (effEnv st env0)] else []) = present st := by
        unfold present
        split
        · exact cnt_leaving _
        · exact ⟨rfl, rfl⟩
      rw [h8.1, h8.2]
      refine ⟨by omega, fun r st' h => ?_⟩
      simp only [Out.ok.injEq, Prod.mk.injEq] at h
      obtain ⟨_, rfl⟩ := h
      have : present st1 = 1 := by unfold present; rw [if_pos h4]
      omega
    · refine even ?_ h3
      rw [h7]
      exact stops (cnt_part h4 h5 h6)
    · have hc := cnt_part h4 h5 h6
      rcases h7 with h7 | h7
      · rw [h7, hc.1, hc.2]; exact ⟨by omega, fun _ _ h => absurd h (by simp)⟩
      · rw [h7, (stops hc).1, (stops hc).2]; exact ⟨by omega, fun _ _ h => absurd h (by simp)⟩

/-- **C75.**  Over every history of callbacks that is not cut off: as many sessions are recorded to be given up as
begin, but for the one that was there before and the one that is still there.  At any rate there are no more. -/
theorem C75_lifecycle {rt : Rt} {cs : List SudoPair.Core.Call} {st : State} {o t}
    (hr : LRuns (Audit.Core.run rt cs st) o t) :
    Spec.left t ≤ begun t + present st ∧
    ∀ rs st', o = .ok (rs, st') → begun t + present st = Spec.left t + present st' := by
  induction cs generalizing st o t with
  | nil =>
    obtain ⟨rfl, rfl⟩ := hr.pure
    refine ⟨Nat.zero_le _, fun rs st' h => ?_⟩
    simp only [Out.ok.injEq, Prod.mk.injEq] at h
    rw [h.2]
    rfl
  | cons c cs ih =>
    unfold Audit.Core.run at hr
    inv LRuns.bind hr with ⟨⟨r, st1⟩, t1, t2, h1, hr, rfl⟩ | ⟨rfl, h1⟩ | ⟨rfl, h1⟩
    · have hb := step_lifecycle h1
      have hb2 := hb.2 r st1 rfl
      simp only at hr
      rw [begun_append, left_append]
      inv LRuns.bind hr with ⟨⟨rs, st2⟩, t3, t4, h2, hr, rfl⟩ | ⟨rfl, h2⟩ | ⟨rfl, h2⟩
      · obtain ⟨rfl, rfl⟩ := hr.pure
        rw [List.append_nil]
        have hi := ih h2
        refine ⟨by omega, fun rs' st' h => ?_⟩
        simp only [Out.ok.injEq, Prod.mk.injEq] at h
        have := hi.2 rs st' (by rw [h.2])
        omega
      · have hi := ih h2; exact ⟨by omega, fun _ _ h => absurd h (by simp)⟩
      · have hi := ih h2; exact ⟨by omega, fun _ _ h => absurd h (by simp)⟩
    · have hb := step_lifecycle h1; exact ⟨hb.1, fun _ _ h => absurd h (by simp)⟩
    · have hb := step_lifecycle h1; exact ⟨hb.1, fun _ _ h => absurd h (by simp)⟩

/-! ### Examples -/

/-- The messages of the sample session, granted and closed, in a build with all records: all of `approved`, then the output, then
the parting. -/
example : messages (Audit.Core.run { sampleRt with maxLevel := .trace } [.open sampleArgs, .log .ttyout (b! "hi"), .close]
      ⟨none, none⟩ (List.replicate 100 (coop 121))).2.1 =
    [b! "plugin initializing", b! "initialized with plugin options:", b! "sudo session requires a pair",
     b! "pair session required", b! "local prompt template loaded", b! "local prompt template evaluated",
     b! "local prompt rendered", b! "socket initializing", b! "socket waiting for pair to connect...",
     b! "socket connected", b! "remote prompt loaded", b! "remote prompt evaluated", b! "remote prompt rendered",
     b! "remote prompt awaiting response...", b! "remote pair responded", b! "remote pair approved session",
     b! "pair session started", b! "{2 bytes sent}", b! "pair session ending", b! "pair session ended",
     b! "plugin exiting"] := by decide +kernel

/-- The course of the sample session is one of those in C75_open. -/
example : Course (Detailed sampleRt) argsEnv (.ofMap argsEnv.pluginOptions) (Pair.ofEnv argsEnv).socketPath true (some 121)
    (records (Audit.Core.open sampleRt sampleArgs ⟨none, none⟩ (List.replicate 100 (coop 121))).2.1) := by
  have h : ¬ Exempt argsEnv (.ofMap argsEnv.pluginOptions) := fun h =>
    absurd ((C04_release (Pair.ofEnv argsEnv)).2 h) (by decide +kernel)
  have := Course.approved (detailed := Detailed sampleRt) (path := (Pair.ofEnv argsEnv).socketPath) 121 h (Or.inl rfl)
  rw [show (records (Audit.Core.open sampleRt sampleArgs ⟨none, none⟩ (List.replicate 100 (coop 121))).2.1) =
    asked (Detailed sampleRt) argsEnv (.ofMap argsEnv.pluginOptions) (Pair.ofEnv argsEnv).socketPath 121 ++
      [about argsEnv .info (b! "remote pair approved session"), about argsEnv .info (b! "pair session started")] by
    decide +kernel]
  exact this

/-- It stops short if there is no socket, and the session is given up. -/
example : (messages (Audit.Core.open sampleRt sampleArgs ⟨none, none⟩ (List.replicate 100 bindFails)).2.1).drop 7 =
    [b! "socket waiting for pair to connect...", b! "plugin exiting"] := by decide +kernel

/-- The hypothesis of C75_none is met by a request without user information. -/
example : (∀ env0, IoEnv.new sampleRt { sampleArgs with userInfo := none } = some (.ok env0) →
      (effEnv ⟨none, none⟩ env0).commandInfo.command = []) := by
  intro env0 h
  have h2 : (match IoEnv.new sampleRt { sampleArgs with userInfo := none } with | some (.ok _) => true | _ => false) = false := by
    decide +kernel
  rw [h] at h2
  exact absurd h2 (by simp)

/-- What is recorded of a `y`, of another answer and of no answer. -/
example : ∀ b ∈ [121, 89, 110, 0, 255], (records (Audit.Core.open sampleRt sampleArgs ⟨none, none⟩
    (List.replicate 100 (coop b))).2.1).contains (response argsEnv b) = true := by decide +kernel

/-- Two sessions begin, one is given up at once as there is another, which is then closed. -/
example :
    let r := Audit.Core.run sampleRt [.open sampleArgs, .open sampleArgs, .close] ⟨none, none⟩
      (List.replicate 100 (coop 121))
    begun r.2.1 = 2 ∧ Spec.left r.2.1 = 2 := by decide +kernel

end SudoPair
