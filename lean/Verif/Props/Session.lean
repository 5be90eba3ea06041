import Verif.Lemmas.Exec
/-
Histories of callbacks: C02, C08 (all callbacks), C23, C24, C49.
-/
namespace SudoPair
open Spec Core

/-- In the trace, `open` was called with `a`, returned `r` and performed `h`, and `close` has not been
called since. -/
def OpenedBy (tr : List Item) (a : OpenArgs) (r : Int) (h : Hist) : Prop :=
  ∃ tr1 tr2, tr = tr1 ++ ⟨.open a, r, h⟩ :: tr2 ∧ ∀ x ∈ tr2, x.call ≠ .close

theorem OpenedBy.snoc {tr a r h x} (ho : OpenedBy tr a r h) (hx : x.call ≠ .close) :
    OpenedBy (tr ++ [x]) a r h := by
  obtain ⟨tr1, tr2, rfl, h2⟩ := ho
  exact ⟨tr1, tr2 ++ [x], by simp, List.forall_mem_append.2 ⟨h2, by simpa using hx⟩⟩

theorem OpenedBy.last (tr a r h) : OpenedBy (tr ++ [⟨.open a, r, h⟩]) a r h :=
  ⟨tr, [], rfl, by simp⟩

/-- How a plugin object came to be stored. -/
def StoredBy (rt : Rt) (env : IoEnv) (p : Pair) (h : Hist) : Prop :=
  env.commandInfo.command ≠ [] ∧
  ((p = Pair.ofEnv env ∧ p.isExempt rt.debug = some true ∧ SessionExempt env ∧ h = []) ∨
   ∃ fd, p = { Pair.ofEnv env with socket := some fd } ∧ p.isExempt rt.debug = some false ∧
     ¬ SessionExempt env ∧ ApprovedSession env fd h)

theorem isExempt_socket (d : Bool) (p : Pair) (s : Option Nat) :
    Pair.isExempt d { p with socket := s } = p.isExempt d := rfl

theorem storedBy_of {rt env p h} (hne : env.commandInfo.command ≠ [])
    (hp : PairOpen rt (Pair.ofEnv env) (.ok (.ok p)) h) : StoredBy rt env p h := by
  refine ⟨hne, ?_⟩
  cases hx : (Pair.ofEnv env).isExempt rt.debug with
  | none =>
    generalize ho : Out.ok (Except.ok p) = o at hp
    cases hp <;> simp_all
  | some b =>
    cases b with
    | true =>
      left
      generalize ho : Out.ok (Except.ok p) = o at hp
      cases hp with
      | exempt _ =>
        simp only [Out.ok.injEq, Except.ok.injEq] at ho
        subst ho; exact ⟨rfl, hx, exempt_of hx, rfl⟩
      | approved h1 => rw [hx] at h1; simp at h1
      | _ => simp at ho
    | false =>
      right
      have hn : ¬ SessionExempt env := by
        intro h1
        have := (C04_rule rt.debug (Pair.ofEnv env) false hx).2 h1
        simp at this
      obtain ⟨fd, h1, h2⟩ := approvedSession_of hn hp
      exact ⟨fd, h1, by rw [h1]; exact hx, hn, h2⟩

/-- The invariant of the two slots over all histories of callbacks. -/
theorem session_inv {rt tr st} (hx : Exec rt Core.init tr st) :
    (∀ env, st.env = some env → ∃ a r h, OpenedBy tr a r h) ∧
    (∀ p, st.plugin = some p → ∃ env a h, st.env = some env ∧ OpenedBy tr a 1 h ∧ StoredBy rt env p h) := by
  induction hx with
  | nil => simp [Core.init]
  | snoc h1 h2 ih =>
    rename_i tr st c r st' h
    by_cases hl : c.isLog ∨ c = .showVersion
    · have := step_log_state hl h2
      subst this
      have hnc : c ≠ .close := by rintro rfl; simp [Call.isLog] at hl
      refine ⟨fun env he => ?_, fun p hp => ?_⟩
      · obtain ⟨a, r', h', ho⟩ := ih.1 env he
        exact ⟨a, r', h', ho.snoc hnc⟩
      · obtain ⟨env, a, h', he, ho, hs⟩ := ih.2 p hp
        exact ⟨env, a, h', he, ho.snoc hnc, hs⟩
    · rcases c with a | _ | _ | _ | _ <;> simp [Call.isLog] at hl
      · -- open
        have hkeep : ∀ p, st.plugin = some p → (∀ env, st.env = some env → st'.env = some env) →
            ∃ env a' h', st'.env = some env ∧ OpenedBy (tr ++ [⟨.open a, r, h⟩]) a' 1 h' ∧
              StoredBy rt env p h' := by
          intro p hp he
          obtain ⟨env, a', h', he', ho, hs⟩ := ih.2 p hp
          exact ⟨env, a', h', he env he', ho.snoc (by simp), hs⟩
        have heff : ∀ env0 env, st.env = some env → (withEnv st env0).env = some env := by
          intro env0 env he; simp [effEnv, he]
        refine ⟨fun env he => ⟨a, r, h, .last tr a r h⟩, fun p hp => ?_⟩
        change Runs (Core.open rt a st) (.ok (r, st')) h at h2
        generalize ho : Out.ok (r, st') = o at h2
        cases coreOpen_runs h2 with
        | envPanic =>
          simp only [Out.ok.injEq, Prod.mk.injEq] at ho
          obtain ⟨rfl, rfl⟩ := ho; exact hkeep p hp (fun _ h => h)
        | envErr =>
          simp only [Out.ok.injEq, Prod.mk.injEq] at ho
          obtain ⟨rfl, rfl⟩ := ho; exact hkeep p hp (fun _ h => h)
        | empty =>
          simp only [Out.ok.injEq, Prod.mk.injEq] at ho
          obtain ⟨rfl, rfl⟩ := ho; exact hkeep p hp (heff _)
        | panic =>
          simp only [Out.ok.injEq, Prod.mk.injEq] at ho
          obtain ⟨rfl, rfl⟩ := ho; exact hkeep p hp (heff _)
        | refused =>
          simp only [Out.ok.injEq, Prod.mk.injEq] at ho
          obtain ⟨rfl, rfl⟩ := ho; exact hkeep p hp (heff _)
        | accepted k1 k2 k3 k4 =>
          simp only [Out.ok.injEq, Prod.mk.injEq] at ho
          obtain ⟨rfl, rfl⟩ := ho
          simp only [Option.some.injEq] at hp
          subst hp
          exact ⟨_, a, h, rfl, .last tr a 1 h, storedBy_of k2 k3⟩
        | again k1 k2 k3 k4 =>
          simp only [Out.ok.injEq, Prod.mk.injEq] at ho
          obtain ⟨rfl, rfl⟩ := ho; exact hkeep p hp (heff _)
        | _ => simp at ho
      · -- close
        change Runs (do let st ← Core.close st; pure ((0 : Int), st)) _ h at h2
        rcases step_bind_runs h2 with ⟨st1, k1, k2⟩ | ⟨k1, _⟩ | ⟨k1, _⟩
        · simp only [Out.ok.injEq, Prod.mk.injEq] at k1
          obtain ⟨rfl, rfl⟩ := k1
          rcases coreClose_runs k2 with ⟨k3, _⟩ | ⟨k3, _⟩ | ⟨_, _, _, _, _, _, k3, _⟩
          · simp at k3
          · simp only [Out.ok.injEq] at k3; subst k3; simp
          · simp only [Out.ok.injEq] at k3; subst k3; simp
        · simp at k1
        · simp at k1

/-! ### C02 -/

/-- C02: in every history of callbacks starting in a fresh process, if a log callback or
`change_winsize` returns 1, then there is an earlier `open` that returned 1, with no `close` since,
and the session stored now is exempt or was approved by a pair during that very `open`. -/
theorem C02_no_unapproved_io (rt : Rt) (tr : List Item) (c : Call) (h : Hist) (st : State)
    (hc : c.isLog) (hx : Exec rt Core.init (tr ++ [⟨c, 1, h⟩]) st) :
    ∃ (tr1 tr2 : List Item) (a : OpenArgs) (h0 : Hist) (env : IoEnv),
      tr = tr1 ++ ⟨.open a, 1, h0⟩ :: tr2 ∧ (∀ x ∈ tr2, x.call ≠ .close) ∧ st.env = some env ∧
      (SessionExempt env ∨ ∃ fd, ApprovedSession env fd h0) := by
  obtain ⟨st', h1, h2⟩ := hx.inv_snoc
  have := step_log_state (Or.inl hc) h2
  subst this
  by_cases hn : st.env = none ∨ st.plugin = none
  · have := (step_log_none hc hn h2).1; simp at this
  · simp only [not_or, ← ne_eq, Option.ne_none_iff_exists'] at hn
    obtain ⟨_, p, hp⟩ := hn
    obtain ⟨env, a, h0, he, ⟨tr1, tr2, ht, hnc⟩, _, hs⟩ := (session_inv h1).2 p hp
    refine ⟨tr1, tr2, a, h0, env, ht, hnc, he, ?_⟩
    rcases hs with ⟨_, _, hs, _⟩ | ⟨fd, _, _, _, hs⟩
    · exact Or.inl hs
    · exact Or.inr ⟨fd, hs⟩

/-- Non-vacuity for C02: the sample session, opened with approval, then writes output. -/
example : retsOf (Core.run sampleRt [.open sampleArgs, .log .ttyout (b! "x")] Core.init
    (List.replicate 60 (coop 121))).1 = some [1, 1] := by decide +kernel

/-! ### C08 (all callbacks) -/

/-- C08: log callbacks and `change_winsize` never let a panic escape and return only 1 or 0. -/
theorem C08_log (rt : Rt) (c : Call) (st : State) (o : Out (Int × State)) (h : Hist) (hc : c.isLog)
    (hr : Runs (Core.step rt c st) o h) :
    o = .killed ∨ ∃ r, o = .ok (r, st) ∧ (r = 1 ∨ r = 0) := by
  by_cases hn : st.env = none ∨ st.plugin = none
  · have := (step_log_none hc hn hr).1; subst this; simp
  · simp only [not_or, ← ne_eq, Option.ne_none_iff_exists'] at hn
    obtain ⟨⟨env, he⟩, p, hp⟩ := hn
    obtain ⟨_, _⟩ := st
    simp only at he hp; subst he hp
    have hl : ∀ {m o h}, LogRun m o h → o = .killed ∨ o = .ok 1 ∨ o = .ok 0 := by
      intro m o h hl; cases hl <;> simp
    have key : ∀ {m : M Int}, (∀ {o h}, Runs m o h → o = .killed ∨ o = .ok 1 ∨ o = .ok 0) →
        Runs (do let r ← m; pure (r, (⟨some env, some p⟩ : State))) o h →
        o = .killed ∨ ∃ r, o = .ok (r, ⟨some env, some p⟩) ∧ (r = 1 ∨ r = 0) := by
      intro m hm hr
      rcases step_bind_runs hr with ⟨r', rfl, k⟩ | ⟨rfl, k⟩ | ⟨rfl, k⟩
      · rcases hm k with k | k | k <;> simp at k <;> subst k <;> simp
      · rcases hm k with k | k | k <;> simp at k
      · exact Or.inl rfl
    rcases c with _ | _ | _ | ⟨f, buf⟩ | ⟨l, cc⟩ <;> simp [Call.isLog] at hc
    · refine key (fun hr => ?_) hr
      rcases log_some_runs hr with ⟨_, rfl, _⟩ | ⟨_, k⟩
      · simp
      · exact hl k
    · exact key (fun hr => hl (changeWinsize_some_runs hr)) hr

/-- C08: a panic inside a log callback (whatever it did before) makes it return 0. -/
theorem C08_log_panic (rt : Rt) (f : Facility) (buf : Bytes) (env : IoEnv) (p : Pair) (s s' : Sched)
    (h : Hist) (hh : Core.hint env.commandInfo f = true)
    (hp : Core.handler rt p buf f s = (.panic, h, s')) :
    Core.log rt f buf ⟨some env, some p⟩ s = (.ok 0, h, s') := by
  have hc : M.catchUnwind (do Core.finish env (← Core.handler rt p buf f)) s = (.ok none, h, s') := by
    simp only [M.catchUnwind]
    rw [M.bind_def, hp]
  unfold Core.log
  simp only [M.ofOption_some, M.pure_bind', hh, Bool.not_true, Bool.false_eq_true, if_false]
  rw [M.bind_ok hc]
  show (_, h ++ [], s') = _
  rw [List.append_nil]; rfl

/-- C08: `show_version` returns 1 or -1, `close` returns; no panic escapes any callback. -/
theorem C08_no_panic (rt : Rt) (c : Call) (st : State) (h : Hist) :
    ¬ Runs (Core.step rt c st) .panic h := by
  intro hr
  by_cases hl : c.isLog
  · rcases C08_log rt c st _ h hl hr with k | ⟨_, k, _⟩ <;> simp at k
  · rcases c with a | _ | _ | _ | _ <;> simp [Call.isLog] at hl
    · rcases C08_open rt a st _ h hr with k | ⟨_, _, k, _⟩ <;> simp at k
    · change Runs (do let st ← Core.close st; pure ((0 : Int), st)) _ h at hr
      rcases step_bind_runs hr with ⟨_, k, _⟩ | ⟨_, k⟩ | ⟨k, _⟩
      · simp at k
      · rcases coreClose_runs k with ⟨k, _⟩ | ⟨k, _⟩ | ⟨_, _, _, _, _, _, k, _⟩ <;> simp at k
      · simp at k
    · rcases step_bind_runs hr with ⟨_, k, _⟩ | ⟨_, k⟩ | ⟨k, _⟩
      · simp at k
      · rcases (showVersion_runs k).2.1 with k | k | k <;> simp at k
      · simp at k

/-- C08: `show_version` returns only 1 or -1. -/
theorem C08_show_version (st : State) (r : Int) (h : Hist) (hr : Runs (Core.showVersion st) (.ok r) h) :
    r = 1 ∨ r = -1 := by
  rcases (showVersion_runs hr).2.1 with k | k | k <;> simp at k <;> simp [k]

/-- Non-vacuity of `C08_log_panic`: the kernel claims to have taken more bytes than offered. -/
def overcount : Answer
  | .sockWrite _ b => .wrote (b.length + 1)
  | c => coop 121 c

example : panics (Core.handler sampleRt { samplePair with socket := some 8 } (b! "x") .ttyout
    (List.replicate 5 overcount)).1 ∧
    (Core.log sampleRt .ttyout (b! "x") ⟨some sampleEnv, some { samplePair with socket := some 8 }⟩
    (List.replicate 5 overcount)).1 = .ok 0 := by decide +kernel

/-! ### C23 -/

/-- No session is open: every `open` that returned 1 was followed by a `close`. -/
def NoSession (tr : List Item) : Prop :=
  ∀ tr1 a h tr2, tr = tr1 ++ ⟨.open a, 1, h⟩ :: tr2 → ∃ x ∈ tr2, x.call = .close

/-- Nothing was opened: every `open`, successful or not, was followed by a `close`. -/
def NothingOpened (tr : List Item) : Prop :=
  ∀ tr1 a r h tr2, tr = tr1 ++ ⟨.open a, r, h⟩ :: tr2 → ∃ x ∈ tr2, x.call = .close

theorem plugin_none_of_noSession {rt tr st} (hx : Exec rt Core.init tr st) (hn : NoSession tr) :
    st.plugin = none := by
  cases hp : st.plugin with
  | none => rfl
  | some p =>
    obtain ⟨env, a, h, _, ⟨tr1, tr2, ht, hnc⟩, _⟩ := (session_inv hx).2 p hp
    obtain ⟨x, hx, hxc⟩ := hn tr1 a h tr2 ht
    exact absurd hxc (hnc x hx)

theorem env_none_of_nothingOpened {rt tr st} (hx : Exec rt Core.init tr st) (hn : NothingOpened tr) :
    st.env = none := by
  cases he : st.env with
  | none => rfl
  | some env =>
    obtain ⟨a, r, h, ⟨tr1, tr2, ht, hnc⟩⟩ := (session_inv hx).1 env he
    obtain ⟨x, hx, hxc⟩ := hn tr1 a r h tr2 ht
    exact absurd hxc (hnc x hx)

/-- C23: outside a session (before any `open`, after failed ones, after `close`) every log callback and
`change_winsize` returns 0 and does nothing, for every schedule. -/
theorem C23_log_refused (rt : Rt) (tr : List Item) (st : State) (c : Call) (s : Sched)
    (hx : Exec rt Core.init tr st) (hn : NoSession tr) (hc : c.isLog) :
    (Core.step rt c st s).1 = .ok (0, st) ∧ (Core.step rt c st s).2.1 = [] :=
  step_log_none hc (Or.inr (plugin_none_of_noSession hx hn)) ⟨s, rfl, rfl⟩

/-- C23: `show_version` before any `open` (or after `close`) returns -1 and prints nothing. -/
theorem C23_show_version_refused (rt : Rt) (tr : List Item) (st : State) (s : Sched)
    (hx : Exec rt Core.init tr st) (hn : NothingOpened tr) :
    (Core.showVersion st s).1 = .ok (-1) ∧ (Core.showVersion st s).2.1 = [] :=
  (showVersion_runs ⟨s, rfl, rfl⟩).2.2 (env_none_of_nothingOpened hx hn)

/-- Non-vacuity: the empty history, a declined session, and a closed one. -/
example : NoSession [] ∧ NothingOpened [] ∧ NoSession [⟨.open sampleArgs, -1, []⟩] ∧
    NoSession [⟨.open sampleArgs, 1, []⟩, ⟨.close, 0, []⟩] := by
  refine ⟨?_, ?_, ?_, ?_⟩
  · intro tr1 a h tr2 ht; simp at ht
  · intro tr1 a r h tr2 ht; simp at ht
  · intro tr1 a h tr2 ht
    rcases tr1 with _ | ⟨y, tr1⟩
    · simp at ht
    · simp at ht
  · intro tr1 a h tr2 ht
    rcases tr1 with _ | ⟨y, _ | ⟨z, tr1⟩⟩
    · simp only [List.nil_append, List.cons.injEq] at ht
      exact ⟨⟨.close, 0, []⟩, by rw [← ht.2]; simp, rfl⟩
    · simp at ht
    · simp at ht

/-! ### C24 -/

/-- C24: when `close` returns, both slots are empty; it shut down the connection of the stored session
if there is one, and did nothing otherwise. -/
theorem C24_close (st st' : State) (h : Hist) (hr : Runs (Core.close st) (.ok st') h) :
    st' = ⟨none, none⟩ ∧
    (∀ p fd, st.plugin = some p → p.socket = some fd →
      (∃ b : Bool, (⟨.shutdown fd, b⟩ : Ev) ∈ h) ∧ ∀ e ∈ h, e.call = .shutdown fd) ∧
    ((∀ p, st.plugin = some p → p.socket = none) → h = []) := by
  rcases coreClose_runs hr with ⟨k, _⟩ | ⟨k, rfl, k2⟩ | ⟨p, fd, b, b', hp, hs, k, rfl⟩
  · simp at k
  · simp only [Out.ok.injEq] at k; subst k
    refine ⟨rfl, fun p fd hp hs => ?_, fun _ => rfl⟩
    rw [k2 p hp] at hs; simp at hs
  · simp only [Out.ok.injEq] at k; subst k
    refine ⟨rfl, fun p' fd' hp' hs' => ?_, fun hn => ?_⟩
    · rw [hp] at hp'; simp only [Option.some.injEq] at hp'; subst hp'
      rw [hs] at hs'; simp only [Option.some.injEq] at hs'; subst hs'
      exact ⟨⟨b, by simp⟩, by simp⟩
    · rw [hn p hp] at hs; simp at hs

/-- C24: `close` is idempotent: closing again does nothing, for every schedule. -/
theorem C24_idempotent (st st' : State) (h : Hist) (s : Sched) (hr : Runs (Core.close st) (.ok st') h) :
    Core.close st' s = (.ok st', [], s) := by
  obtain ⟨rfl, _⟩ := C24_close st st' h hr
  rfl

/-- C24: after `close`, until the next `open`, no callback interacts with anything at all; in
particular no byte is sent to the pair. -/
theorem C24_silent_afterwards (rt : Rt) (st st' : State) (tr1 tr2 : List Item) (r : Int) (h : Hist)
    (hx : Exec rt st (tr1 ++ ⟨.close, r, h⟩ :: tr2) st') (hno : ∀ x ∈ tr2, ∀ a, x.call ≠ .open a) :
    st' = ⟨none, none⟩ ∧ ∀ x ∈ tr2, x.hist = [] := by
  obtain ⟨st1, _, h2⟩ := hx.split
  obtain ⟨st2, h3, h4⟩ := h2.inv_cons
  have hst2 : st2 = ⟨none, none⟩ := by
    change Runs (do let st ← Core.close st1; pure ((0 : Int), st)) _ h at h3
    rcases step_bind_runs h3 with ⟨st3, k1, k2⟩ | ⟨k1, _⟩ | ⟨k1, _⟩
    · simp only [Out.ok.injEq, Prod.mk.injEq] at k1
      obtain ⟨_, rfl⟩ := k1
      exact (C24_close _ _ _ k2).1
    · simp at k1
    · simp at k1
  clear h2 h3 hx
  induction h4 with
  | nil => exact ⟨hst2, by simp⟩
  | snoc k1 k2 ih =>
    rename_i tr st3 c r' st4 h'
    obtain ⟨rfl, k3⟩ := ih (fun x hx => hno x (by simp [hx]))
    have hc := hno ⟨c, r', h'⟩ (by simp)
    have hh : st4 = ⟨none, none⟩ ∧ h' = [] := by
      by_cases hl : c.isLog
      · have := step_log_none hl (Or.inl rfl) k2
        simp only [Out.ok.injEq, Prod.mk.injEq] at this
        exact ⟨this.1.2, this.2⟩
      · rcases c with a | _ | _ | _ | _ <;> simp [Call.isLog] at hl
        · exact absurd rfl (hc a)
        · change Runs (do let st ← Core.close ⟨none, none⟩; pure ((0 : Int), st)) _ h' at k2
          rcases step_bind_runs k2 with ⟨st5, k4, k5⟩ | ⟨k4, _⟩ | ⟨k4, _⟩
          · simp only [Out.ok.injEq, Prod.mk.injEq] at k4
            obtain ⟨_, rfl⟩ := k4
            have := C24_close _ _ _ k5
            exact ⟨this.1, this.2.2 (by simp)⟩
          · simp at k4
          · simp at k4
        · have hst := step_log_state (Or.inr rfl) k2
          refine ⟨hst, ?_⟩
          rcases step_bind_runs k2 with ⟨r'', _, k5⟩ | ⟨k4, _⟩ | ⟨k4, _⟩
          · exact ((showVersion_runs k5).2.2 rfl).2
          · simp at k4
          · simp at k4
    exact ⟨hh.1, List.forall_mem_append.2 ⟨k3, by simpa using hh.2⟩⟩

/-- Non-vacuity: closing an approved session shuts its connection (8) down. -/
example : ((Core.run sampleRt [.open sampleArgs, .close, .close, .log .ttyout (b! "x")] Core.init
    (List.replicate 60 (coop 121))).2.1.map Ev.call).getLast? = some (.shutdown 8) := by decide +kernel

/-! ### C49 -/

/-- C49 (partial): if nothing has been opened since the last `close`, then an `open` with arguments `a`
and all later callbacks until the next `open` or `close` use the environment decoded from `a`
(nothing, if `a` is not acceptable), and the stored plugin was created for it.

Missing from the full statement: a second `open` without a `close` in between.  There the statement
is false, `C49_counterexample`. -/
theorem C49_fresh_partial (rt : Rt) (tr1 tr2 : List Item) (a : OpenArgs) (r : Int) (h : Hist) (st : State)
    (hx : Exec rt Core.init (tr1 ++ ⟨.open a, r, h⟩ :: tr2) st) (hn : NothingOpened tr1)
    (hno : ∀ x ∈ tr2, x.call.isLog ∨ x.call = .showVersion) :
    (∀ env, st.env = some env ↔ IoEnv.new rt a = some (.ok env)) ∧
    (∀ p, st.plugin = some p → IoEnv.new rt a = some (.ok p.env) ∧
      p.options = .ofMap p.env.pluginOptions) := by
  obtain ⟨st1, h1, h2⟩ := hx.split
  obtain ⟨st2, h3, h4⟩ := h2.inv_cons
  have hst : st = st2 := by
    clear h2 hx h3
    induction h4 with
    | nil => rfl
    | snoc k1 k2 ih =>
      rename_i tr st3 c r' st4 h'
      have := ih (fun x hx => hno x (by simp [hx]))
      subst this
      exact step_log_state (hno ⟨c, r', h'⟩ (by simp)) k2
  subst hst
  have he1 := env_none_of_nothingOpened h1 hn
  have hp1 : st1.plugin = none := by
    refine plugin_none_of_noSession h1 ?_
    intro t1 a' h' t2 ht; exact hn t1 a' 1 h' t2 ht
  obtain ⟨e1, p1⟩ := st1
  simp only at he1 hp1
  subst he1 hp1
  change Runs (Core.open rt a ⟨none, none⟩) (.ok (r, st)) h at h3
  generalize ho : Out.ok (r, st) = o at h3
  have hok : ∀ {env0}, IoEnv.new rt a = some (.ok env0) → ∀ env,
      (withEnv ⟨none, none⟩ env0).env = some env ↔ IoEnv.new rt a = some (.ok env) := by
    intro env0 h env
    rw [h]; simp [effEnv]
  have hpq : ∀ {env p h}, PairOpen rt (Pair.ofEnv env) (.ok (.ok p)) h →
      p.env = env ∧ p.options = .ofMap env.pluginOptions := by
    intro env p h hp
    generalize ho : Out.ok (Except.ok p) = o at hp
    cases hp with
    | exempt _ => simp only [Out.ok.injEq, Except.ok.injEq] at ho; subst ho; exact ⟨rfl, rfl⟩
    | approved _ _ _ _ _ => simp only [Out.ok.injEq, Except.ok.injEq] at ho; subst ho; exact ⟨rfl, rfl⟩
    | _ => simp at ho
  cases coreOpen_runs h3 with
  | envPanic k =>
    simp only [Out.ok.injEq, Prod.mk.injEq] at ho
    obtain ⟨rfl, rfl⟩ := ho; simp [k]
  | envErr k =>
    simp only [Out.ok.injEq, Prod.mk.injEq] at ho
    obtain ⟨rfl, rfl⟩ := ho; simp [k]
  | empty k =>
    simp only [Out.ok.injEq, Prod.mk.injEq] at ho
    obtain ⟨rfl, rfl⟩ := ho; exact ⟨hok k, by simp⟩
  | panic k =>
    simp only [Out.ok.injEq, Prod.mk.injEq] at ho
    obtain ⟨rfl, rfl⟩ := ho; exact ⟨hok k, by simp⟩
  | refused k =>
    simp only [Out.ok.injEq, Prod.mk.injEq] at ho
    obtain ⟨rfl, rfl⟩ := ho; exact ⟨hok k, by simp⟩
  | accepted k _ k3 _ =>
    simp only [Out.ok.injEq, Prod.mk.injEq] at ho
    obtain ⟨rfl, rfl⟩ := ho
    refine ⟨hok k, ?_⟩
    intro p hp
    simp only [Option.some.injEq] at hp
    subst hp
    obtain ⟨k4, k5⟩ := hpq k3
    rw [k4, k5]
    exact ⟨k, rfl⟩
  | again _ _ _ k => simp at k
  | _ => simp at ho

/-- The same user running `/bin/ls` as themselves (exempt), keeping their groups. -/
def selfArgs : OpenArgs := { sampleArgs with
  commandInfo := some [b! "command=/bin/ls", b! "runas_uid=1000", b! "runas_gid=1000",
    b! "preserve_groups=true", b! "iolog_ttyout=true"] }

/-- C49 is false for a second `open` without `close`: the first `open` (the user runs a command as
themselves, exempt) leaves its environment behind; the second one, to root and not exempt, is judged
by the first environment and returns 1 without any interaction. -/
theorem C49_counterexample : ∃ (rt : Rt) (a1 a2 : OpenArgs) (env2 : IoEnv),
    IoEnv.new rt a2 = some (.ok env2) ∧ ¬ SessionExempt env2 ∧
    ∃ st, Runs (Core.run rt [.open a1, .open a2] Core.init) (.ok ([1, 1], st)) [] ∧
      st.env ≠ some env2 := by
  have h5 : ((IoEnv.new sampleRt sampleArgs).bind Except.toOption).map
      (fun env => (env.commandInfo.runasEuid, (Pair.ofEnv env).isExempt false)) = some (0, some false) := by
    decide +kernel
  have h6 : ((Core.run sampleRt [.open selfArgs, .open sampleArgs] Core.init []).2.1.length,
      match (Core.run sampleRt [.open selfArgs, .open sampleArgs] Core.init []).1 with
      | .ok (rs, st) => some (rs, st.env.map (fun env => env.commandInfo.runasEuid))
      | _ => none) = (0, some ([1, 1], some 1000)) := by decide +kernel
  rcases hn : IoEnv.new sampleRt sampleArgs with _ | (e | env) <;> rw [hn] at h5
  · simp at h5
  · simp [Except.toOption] at h5
  · simp only [Except.toOption, Option.bind_some, Option.map_some, Option.some.injEq, Prod.mk.injEq] at h5
    refine ⟨sampleRt, selfArgs, sampleArgs, env, hn, fun hx => ?_, ?_⟩
    · have h7 := (C04_release (Pair.ofEnv env)).2 hx
      rw [h5.2] at h7; simp at h7
    · rcases hc : Core.run sampleRt [.open selfArgs, .open sampleArgs] Core.init [] with
        ⟨⟨rs, st⟩ | _ | _, h, s⟩ <;> rw [hc] at h6 <;>
        simp only [Option.some.injEq, reduceCtorEq, Prod.mk.injEq, and_false] at h6
      obtain ⟨h7, rfl, h8⟩ := h6
      have : h = [] := by simpa using h7
      subst this
      refine ⟨st, runs_of hc, fun he => ?_⟩
      rw [he] at h8
      simp only [Option.map_some, Option.some.injEq] at h8
      omega

end SudoPair
