import Verif.Lemmas.Audit
import Verif.Lemmas.Prompt
import Verif.Props.Exempt
import Verif.Props.Local
/-
The story the log tells about an `open`.
-/
namespace SudoPair.Audit
open Spec

variable {α β : Type}

/-- Code whose records do not last. -/
abbrev Faint (m : L α) : Prop := AllEnt (fun e => ∀ r, e = .note r → Lasting r.level = false) m

theorem faint_lift (m : M α) : Faint (L.lift m) := by
  intro s e he r hr
  obtain ⟨x, _, rfl⟩ := List.mem_map.1 he
  exact absurd hr (by simp)

theorem faint_say {ctx l m own} (h : Lasting l = false) : Faint (L.say ctx l m own) :=
  allEnt_say (fun r hr => by cases hr; exact h)

theorem faint_say' {p l m own} (h : Lasting l = false) : Faint (say p l m own) := faint_say h

theorem faint_exiting (p : Pair) : Faint (exiting p) := faint_say rfl

theorem Faint.view {m : L α} (hm : Faint m) {o t} (hr : LRuns m o t) : view t = acts (events t) :=
  view_events (hm.of hr)

theorem faint_isExempt (d : Bool) (p : Pair) : Faint (isExempt d p) := by
  have stop : ∀ (m : Bytes) (own : Fields) (b : Bool), Faint (do say p .debug m own; pure b) :=
    fun m own b => allEnt_bind (faint_say' rfl) fun _ => allEnt_pure _
  unfold isExempt
  exact allEnt_ite (stop _ _ _) (allEnt_bind (faint_lift _) fun _ => allEnt_ite (stop _ _ _) (allEnt_ite (stop _ _ _)
    (allEnt_ite (stop _ _ _) (allEnt_ite (stop _ _ _) (allEnt_bind (faint_lift _) fun _ => allEnt_ite (stop _ _ _) (stop _ _ _))))))

theorem faint_localPairPrompt (p : Pair) (spec : TemplateSpec) : Faint (localPairPrompt p spec) := by
  unfold localPairPrompt
  refine allEnt_bind (faint_lift _) fun _ => allEnt_bind (faint_say' rfl) fun _ =>
    allEnt_bind (faint_say' rfl) fun _ => allEnt_bind (faint_lift _) fun _ => allEnt_ite (faint_say' rfl) ?_
  exact allEnt_bind (faint_lift _) fun _ => faint_say' rfl

theorem detailed_iff (rt : Rt) : Level.compiled rt.maxLevel .debug = Detailed rt := by
  unfold Detailed; cases rt.maxLevel <;> rfl

theorem faint_initializing (rt : Rt) (p : Pair) : Faint (initializing rt p) :=
  allEnt_ite (allEnt_bind (faint_lift _) fun _ => faint_say rfl) (allEnt_pure _)

theorem initializing_erased {rt : Rt} {p : Pair} {o t} (hr : LRuns (initializing rt p) o t) :
    o ≠ .killed ∧ events t = [] := by
  have h := hr.erase
  rw [erase_initializing] at h
  obtain ⟨s, rfl, h2⟩ := h
  rw [← h2]
  cases Level.compiled rt.maxLevel .debug <;> cases p.socketMode <;> exact ⟨by simp [M.ofOption, Bind.bind, M.bind, Pure.pure, M.pure, M.panic], rfl⟩

theorem initializing_ends {rt : Rt} {p : Pair} {o t} (hr : LRuns (initializing rt p) o t) : o ≠ .killed :=
  (initializing_erased hr).1

theorem initializing_panics {rt : Rt} {p : Pair} {o t} (hr : LRuns (initializing rt p) o t) :
    (o = .panic → Detailed rt = true ∧ p.socketMode = none) ∧ (Detailed rt = true ∧ p.socketMode = none → o = .panic) := by
  have h := hr.erase
  rw [erase_initializing] at h
  obtain ⟨s, rfl, h2⟩ := h
  rw [← detailed_iff]
  cases Level.compiled rt.maxLevel .debug <;> cases p.socketMode <;> simp [M.ofOption, Bind.bind, M.bind, Pure.pure, M.pure, M.panic]

theorem nobody_iff (p : Pair) : p.socketMode = none ↔ Nobody p.env := by
  unfold Pair.socketMode Pair.toUser Pair.toExplicitGroup Nobody
  by_cases h1 : p.env.userInfo.uid = p.env.commandInfo.runasEuid
  · cases h2 : p.env.settings.runasGroup <;> simp [h1]
  · have h1' : ¬ p.env.commandInfo.runasEuid = p.env.userInfo.uid := fun h => h1 h.symm
    simp [h1, h1']

theorem initializing_view {rt : Rt} {p : Pair} {o t} (hr : LRuns (initializing rt p) o t) : view t = [] := by
  rw [(faint_initializing rt p).view hr, (initializing_erased hr).2]
  rfl

theorem acts_append (h h' : Hist) : acts (h ++ h') = acts h ++ acts h' := List.map_append ..

theorem view_lasting {r : Record} {t} (h : Lasting r.level = true) : view (.note r :: t) = .note r :: view t :=
  List.filter_cons_of_pos (by simp [h])
theorem view_faint {r : Record} {t} (h : Lasting r.level = false) : view (.note r :: t) = view t :=
  List.filter_cons_of_neg (by simp [h])

/-! ### Talking to the pair -/

theorem answers_append (h h' : Hist) : answers (h ++ h') = answers h ++ answers h' := by
  induction h with
  | nil => rfl
  | cons e h ih =>
    rcases e with ⟨c, r⟩
    cases c <;> try exact ih
    rcases r with ⟨l, _⟩ | _ | _
    · show _ :: answers (h ++ h') = _ :: _ ++ answers h'; rw [ih]; rfl
    · exact ih
    · exact ih

theorem answers_writes {fd : Nat} {h : Hist} (hc : ∀ e ∈ h, WriteCall fd e.call) : answers h = [] := by
  induction h with
  | nil => rfl
  | cons e h ih =>
    have ih := ih fun e he => hc e (.tail _ he)
    have := hc e (.head _)
    rcases e with ⟨c, r⟩
    cases c <;> first | exact ih | exact False.elim this

theorem talks_writes {fd : Nat} {h : Hist} (hc : ∀ e ∈ h, WriteCall fd e.call) : ∀ e ∈ h, Talks fd e.call := by
  intro e he
  have := hc e he
  rcases e with ⟨c, r⟩
  cases c <;> first | exact this | exact False.elim this | trivial

theorem flush_writes {o : Out Bool} {h : Hist} (fd : Nat) (hf : GuardedFlush o h) : ∀ e ∈ h, WriteCall fd e.call := by
  cases hf <;> simp [WriteCall]

theorem talks_read {fd n o h} (hg : Guarded (.sockRead fd n) o h) : ∀ e ∈ h, Talks fd e.call := by
  cases hg <;> simp [Talks]

theorem talks_append {fd : Nat} {h h' : Hist} (a : ∀ e ∈ h, Talks fd e.call) (b : ∀ e ∈ h', Talks fd e.call) :
    ∀ e ∈ h ++ h', Talks fd e.call := List.forall_mem_append.2 ⟨a, b⟩

/-- How a conversation with the pair goes. -/
inductive Talk (p : Pair) (fd : Nat) : Out (Except ErrorKind Unit) → List Entry → Prop
  | cut (talk : Hist) : (∀ x ∈ talk, Talks fd x.call) → Talk p fd .killed (acts talk)
  | crash (talk : Hist) : (∀ x ∈ talk, Talks fd x.call) → (∃ x ∈ talk, Overcount x) → Talk p fd .panic (acts talk)
  | none (talk : Hist) (e : ErrorKind) : (∀ x ∈ talk, Talks fd x.call) → (answers talk = [] ∨ Misread talk) →
      Talk p fd (.ok (.error e)) (acts talk)
  | no (talk : Hist) (b : Option UInt8) (e : ErrorKind) : (∀ x ∈ talk, Talks fd x.call) → answers talk = [b] →
      b ≠ some 121 → b ≠ some 89 →
      Talk p fd (.ok (.error e)) (acts talk ++ [mark p.env .warning (b! "remote pair declined session")])
  | yes (talk : Hist) (b : UInt8) : (∀ x ∈ talk, Talks fd x.call) → answers talk = [some b] →
      b = 121 ∨ b = 89 →
      Talk p fd (.ok (.ok ())) (acts talk ++ [mark p.env .info (b! "remote pair approved session")])

theorem LRuns.lift_bind {m : M α} {f : α → L β} {o t} (hr : LRuns (L.lift m >>= f) o t) :
    (∃ a h t', Runs m (.ok a) h ∧ LRuns (f a) o t' ∧ t = acts h ++ t') ∨
    (o = .panic ∧ ∃ h, Runs m .panic h ∧ t = acts h) ∨ (o = .killed ∧ ∃ h, Runs m .killed h ∧ t = acts h) := by
  rcases hr.bind with ⟨a, t1, t2, h1, h2, rfl⟩ | ⟨rfl, h1⟩ | ⟨rfl, h1⟩
  · obtain ⟨h, h3, rfl⟩ := h1.lift; exact Or.inl ⟨a, h, t2, h3, h2, rfl⟩
  · exact Or.inr (Or.inl ⟨rfl, h1.lift⟩)
  · exact Or.inr (Or.inr ⟨rfl, h1.lift⟩)

theorem LRuns.psay_bind {p : Pair} {l m own} {f : Unit → L β} {o t} (hr : LRuns (Audit.say p l m own >>= f) o t) :
    ∃ t', LRuns (f ()) o t' ∧ t = .note ⟨l, m, own ++ session p.env⟩ :: t' := LRuns.say_bind hr

theorem view_acts' (h : Hist) : view (acts h) = acts h := view_acts h

theorem Talk.cons {p fd o t} {h : Hist} (hc : ∀ e ∈ h, Talks fd e.call) (ha : answers h = [])
    (ht : Talk p fd o t) : Talk p fd o (acts h ++ t) := by
  have hm : ∀ talk, Misread talk → Misread (h ++ talk) := by
    rintro talk ⟨t, fd, n, r, act, rfl⟩
    exact ⟨h ++ t, fd, n, r, act, by rw [List.append_assoc]⟩
  cases ht with
  | cut talk h1 => rw [← acts_append]; exact .cut _ (talks_append hc h1)
  | crash talk h1 h2 =>
    obtain ⟨x, hx, h2⟩ := h2
    rw [← acts_append]; exact .crash _ (talks_append hc h1) ⟨x, List.mem_append_right _ hx, h2⟩
  | none talk e h1 h2 =>
    rw [← acts_append]
    refine .none _ e (talks_append hc h1) ?_
    rcases h2 with h2 | h2
    · exact Or.inl (by rw [answers_append, ha, h2]; rfl)
    · exact Or.inr (hm _ h2)
  | no talk b e h1 h2 h3 h4 =>
    rw [← List.append_assoc, ← acts_append]
    exact .no _ b e (talks_append hc h1) (by rw [answers_append, ha, h2]; rfl) h3 h4
  | yes talk b h1 h2 h3 =>
    rw [← List.append_assoc, ← acts_append]
    exact .yes _ b (talks_append hc h1) (by rw [answers_append, ha, h2]; rfl) h3

theorem talk_runs {p : Pair} {spec : TemplateSpec} {fd o t} (hr : LRuns (remotePairPrompt p spec fd) o t) :
    Talk p fd o (view t) := by
  unfold remotePairPrompt at hr
  inv LRuns.lift_bind hr with ⟨x, h1, t1, h, hr, rfl⟩ | ⟨rfl, h1, h, rfl⟩ | ⟨rfl, h1, h, rfl⟩
  case inr.inl => rcases h.sys with ⟨h, _⟩ | ⟨r, h, _⟩ <;> exact absurd h (by simp)
  case inr.inr =>
    rcases h.sys with ⟨_, rfl⟩ | ⟨r, h, _⟩
    · exact .cut [] (by simp)
    · exact absurd h (by simp)
  rw [view_append, view_acts']
  refine Talk.cons (h := h1) ?_ ?_ ?_
  · rcases h.sys with ⟨_, rfl⟩ | ⟨r, _, rfl⟩ <;> simp [Talks]
  · rcases h.sys with ⟨_, rfl⟩ | ⟨r, _, rfl⟩ <;> simp [answers]
  clear h
  inv LRuns.psay_bind hr with ⟨t2, hr, rfl⟩
  rw [view_faint rfl]
  inv LRuns.psay_bind hr with ⟨t1, hr, rfl⟩
  rw [view_faint rfl]
  inv LRuns.lift_bind hr with ⟨w, h2, t2, h, hr, rfl⟩ | ⟨rfl, h2, h, rfl⟩ | ⟨rfl, h2, h, rfl⟩
  case inr.inl =>
    have h := socketWriteAll_runs h
    rw [view_acts']; exact .crash _ (talks_writes h.calls) (h.panic rfl)
  case inr.inr => rw [view_acts']; exact .cut _ (talks_writes (socketWriteAll_runs h).calls)
  rw [view_append, view_acts']
  have hc := (socketWriteAll_runs h).calls
  refine Talk.cons (talks_writes hc) (answers_writes hc) ?_
  clear h hc
  cases w with
  | false => obtain ⟨rfl, rfl⟩ := hr.pure; exact .none [] _ (by simp) (Or.inl rfl)
  | true =>
  rw [if_pos rfl] at hr
  inv LRuns.lift_bind hr with ⟨w, h3, t3, h, hr, rfl⟩ | ⟨rfl, h3, h, rfl⟩ | ⟨rfl, h3, h, rfl⟩
  case inr.inl => cases flush_runs h
  case inr.inr => rw [view_acts']; exact .cut _ (talks_writes (flush_writes fd (flush_runs h)))
  rw [view_append, view_acts']
  have hc := flush_writes fd (flush_runs h)
  refine Talk.cons (talks_writes hc) (answers_writes hc) ?_
  clear h hc
  cases w with
  | false => obtain ⟨rfl, rfl⟩ := hr.pure; exact .none [] _ (by simp) (Or.inl rfl)
  | true =>
  rw [if_pos rfl] at hr
  inv LRuns.psay_bind hr with ⟨t4, hr, rfl⟩
  rw [view_faint rfl]
  inv LRuns.psay_bind hr with ⟨t3, hr, rfl⟩
  rw [view_faint rfl]
  inv LRuns.lift_bind hr with ⟨w, h4, t4, h, hr, rfl⟩ | ⟨rfl, h4, h, rfl⟩ | ⟨rfl, h4, h, rfl⟩
  case inr.inl => obtain ⟨o', hg, ⟨_, h⟩ | ⟨_, h⟩ | ⟨_, _, h⟩⟩ := read_runs h <;> exact absurd h (by simp)
  case inr.inr =>
    obtain ⟨o', hg, _⟩ := read_runs h
    rw [view_acts']; exact .cut _ (talks_read hg)
  rw [view_append, view_acts']
  obtain ⟨o', hg, ho⟩ := read_runs h
  have hc := talks_read hg
  clear h
  cases hb : Pair.responseByte w with
  | none =>
    rw [hb] at hr
    obtain ⟨rfl, rfl⟩ := hr.pure
    rw [show view [] = acts [] from rfl, ← acts_append, List.append_nil]
    refine .none _ _ hc ?_
    rcases ho with ⟨_, h⟩ | ⟨rfl, h⟩ | ⟨r, rfl, h⟩
    · exact absurd h (by simp)
    · cases hg with
      | noGet => exact Or.inl rfl
      | noSet old => exact Or.inl rfl
      | noReset old r => exact Or.inr ⟨[_, _], _, _, r, old, rfl⟩
    · simp only [Out.ok.injEq] at h; subst h
      cases hg with
      | done old _ => rcases w with ⟨_ | _, _⟩ | _ | _ <;> first | exact Or.inl rfl | exact absurd hb (by simp [Pair.responseByte])
  | some b =>
    rw [hb] at hr
    have ha : ∃ c, answers h4 = [c] ∧ c.getD 110 = b := by
      rcases ho with ⟨_, h⟩ | ⟨rfl, h⟩ | ⟨r, rfl, h⟩
      · exact absurd h (by simp)
      · simp only [Out.ok.injEq] at h; subst h; exact absurd hb (by simp [Pair.responseByte])
      · simp only [Out.ok.injEq] at h; subst h
        cases hg with
        | done old _ =>
          rcases w with ⟨_ | ⟨c, _⟩, _⟩ | _ | _
          · exact ⟨none, rfl, by simpa [Pair.responseByte] using hb⟩
          · exact ⟨some c, rfl, by simpa [Pair.responseByte] using hb⟩
          · exact absurd hb (by simp [Pair.responseByte])
          · exact absurd hb (by simp [Pair.responseByte])
    obtain ⟨c, ha, rfl⟩ := ha
    inv LRuns.psay_bind hr with ⟨t5, hr, rfl⟩
    rw [view_faint rfl]
    inv LRuns.lift_bind hr with ⟨w, h5, t6, h, hr, rfl⟩ | ⟨rfl, h5, h, rfl⟩ | ⟨rfl, h5, h, rfl⟩
    case inr.inl =>
      have h := socketWriteAll_runs h
      obtain ⟨x, hx, hp⟩ := h.panic rfl
      rw [view_acts', ← acts_append]
      exact .crash _ (talks_append hc (talks_writes h.calls)) ⟨x, List.mem_append_right _ hx, hp⟩
    case inr.inr =>
      rw [view_acts', ← acts_append]; exact .cut _ (talks_append hc (talks_writes (socketWriteAll_runs h).calls))
    have hc5 := (socketWriteAll_runs h).calls
    clear h
    inv LRuns.lift_bind hr with ⟨w, h6, t7, h, hr, rfl⟩ | ⟨rfl, h6, h, rfl⟩ | ⟨rfl, h6, h, rfl⟩
    case inr.inl =>
      have h := socketWriteAll_runs h
      obtain ⟨x, hx, hp⟩ := h.panic rfl
      rw [view_append, view_acts', view_acts', ← acts_append, ← acts_append]
      exact .crash _ (talks_append hc (talks_append (talks_writes hc5) (talks_writes h.calls)))
        ⟨x, List.mem_append_right _ (List.mem_append_right _ hx), hp⟩
    case inr.inr =>
      rw [view_append, view_acts', view_acts', ← acts_append, ← acts_append]
      exact .cut _ (talks_append hc (talks_append (talks_writes hc5) (talks_writes (socketWriteAll_runs h).calls)))
    have hc6 := (socketWriteAll_runs h).calls
    clear h
    rw [view_append, view_append, view_acts', view_acts', ← List.append_assoc, ← List.append_assoc, ← acts_append,
      ← acts_append]
    have hcc := talks_append (talks_append hc (talks_writes hc5)) (talks_writes hc6)
    have haa : answers (h4 ++ h5 ++ h6) = [c] := by
      rw [answers_append, answers_append, answers_writes hc5, answers_writes hc6, ha]; rfl
    split at hr
    · rename_i hy
      inv LRuns.psay_bind hr with ⟨t8, hr, rfl⟩
      obtain ⟨rfl, rfl⟩ := hr.pure
      rw [view_lasting rfl]
      cases c with
      | none => exact absurd hy (by decide)
      | some b => exact .yes _ b hcc haa hy
    · rename_i hn
      inv LRuns.psay_bind hr with ⟨t8, hr, rfl⟩
      obtain ⟨rfl, rfl⟩ := hr.pure
      rw [view_lasting rfl]
      refine .no _ c _ hcc haa ?_ ?_ <;> rintro rfl <;> exact hn (by simp)

/-! ### Opening a session -/

theorem setsUp_unlink (path : Bytes) : AllEv (fun e => SetsUp path e.call) (Socket.unlink path) := by
  unfold Socket.unlink
  refine allEv_bind (allEv_sys fun _ => rfl) fun r => ?_
  rcases r with _ | _ | _
  · exact allEv_pure _
  · exact allEv_pure _
  · exact allEv_sys fun _ => rfl

theorem setsUp_open (rt : Rt) (path : Bytes) (uid gid mode : Nat) :
    AllEv (fun e => SetsUp path e.call) (Socket.open' rt path uid gid mode) := by
  unfold Socket.open'
  refine allEv_bind ?_ fun b => allEv_ite (allEv_bind (setsUp_unlink path) fun b => allEv_ite ?_ (allEv_pure _))
    (allEv_pure _)
  · unfold Socket.enforceOwnership
    split
    · exact allEv_pure _
    · refine allEv_ite (allEv_pure _) (allEv_bind (allEv_sys fun _ => trivial) fun r => ?_)
      split
      · exact allEv_pure _
      · exact allEv_ite (allEv_pure _) (allEv_ite (allEv_pure _) (allEv_ite (allEv_pure _) (allEv_pure _)))
  · refine allEv_bind (allEv_sys fun _ => trivial) fun old => allEv_bind (allEv_sys fun _ => rfl) fun r => ?_
    have rest : ∀ c : Option Conn, AllEv (fun e => SetsUp path e.call) (do
        let _ ← Socket.unlink path; let _ ← M.sys (.umask old); pure c) :=
      fun c => allEv_bind (setsUp_unlink path) fun _ => allEv_bind (allEv_sys fun _ => trivial) fun _ => allEv_pure _
    rcases r with fd | _ | _
    · refine allEv_bind ?_ rest
      unfold Socket.acceptOne
      refine allEv_ite (allEv_pure _) (allEv_bind (allEv_sys fun _ => rfl) fun b => allEv_ite ?_ (allEv_pure _))
      refine allEv_bind (allEv_sys fun _ => rfl) fun b => allEv_ite ?_ (allEv_pure _)
      refine allEv_ite allEv_panic (allEv_bind (allEv_sys fun _ => trivial) fun r => ?_)
      split
      · exact allEv_sys fun _ => trivial
      · exact allEv_panic
      · exact allEv_pure _
      · exact allEv_panic
    · exact allEv_bind (allEv_pure _) rest
    · exact allEv_bind (allEv_pure _) rest

/-- How opening a session goes, and what is left to say afterwards. -/
inductive Opened (rt : Rt) (p : Pair) : Out (Except ErrorKind Pair) → List Entry → Prop
  | undecided : p.isExempt rt.debug = none → Opened rt p .panic []
  | exempt : p.isExempt rt.debug = some true →
      Opened rt p (.ok (.ok p)) [mark p.env .info (b! "pair session exempt from pairing requirements")]
  | refused (o : Out (Except ErrorKind Pair)) (t : List Entry) : p.isExempt rt.debug = some false →
      (o = .panic ∨ o = .killed ∨ ∃ e, o = .ok (.error e)) →
      (∀ h e, (∀ x ∈ h, TellsUser x.call) → e ≠ .granted → (o = .killed → e = .cut) →
        Story (Detailed rt) p.env p.socketPath e (t ++ acts h)) →
      Opened rt p o t
  | granted (fd : Nat) (t : List Entry) : p.isExempt rt.debug = some false →
      (∀ h e, (∀ x ∈ h, Leaves fd x.call) → e = .granted ∨ e = .cut →
        Story (Detailed rt) p.env p.socketPath e (t ++ acts h)) →
      Opened rt p (.ok (.ok { p with socket := some fd })) t

theorem session_identity (env : IoEnv) : session env = identity env := rfl

theorem shows_append {h h' : Hist} (a : ∀ x ∈ h, ShowsPrompt x.call) (b : ∀ x ∈ h', TellsUser x.call) :
    ∀ x ∈ h ++ h', ShowsPrompt x.call := by
  refine List.forall_mem_append.2 ⟨a, fun e he => ?_⟩
  have := b e he
  rcases e with ⟨c, r⟩
  cases c <;> first | exact False.elim this | trivial

theorem leaves_tells {fd : Nat} {h : Hist} (b : ∀ x ∈ h, TellsUser x.call) : ∀ x ∈ h, Leaves fd x.call := by
  intro e he
  have := b e he
  rcases e with ⟨c, r⟩
  cases c <;> first | exact False.elim this | trivial

theorem exiting_runs {p : Pair} {o t} (hr : LRuns (exiting p) o t) : o = .ok () ∧ view t = [] := by
  obtain ⟨rfl, rfl⟩ := LRuns.say hr
  exact ⟨rfl, rfl⟩

/-- Dropping the pair on the way out leaves nothing lasting. -/
theorem LRuns.unwind_exiting {p : Pair} {m : L α} {o t} (hr : LRuns (L.onUnwind m (exiting p)) o t) :
    ∃ t', LRuns m o t' ∧ view t = view t' := by
  rcases hr.onUnwind with ⟨h, _⟩ | ⟨t1, t2, o2, h1, h2, rfl, h3⟩
  · exact ⟨t, h, rfl⟩
  · obtain ⟨rfl, hv⟩ := exiting_runs h2
    rcases h3 with ⟨h, _⟩ | ⟨_, rfl⟩
    · exact absurd h (by simp)
    · exact ⟨t1, h1, by rw [view_append, hv, List.append_nil]⟩

theorem LRuns.exiting_bind {p : Pair} {f : Unit → L β} {o t} (hr : LRuns (exiting p >>= f) o t) :
    ∃ t', LRuns (f ()) o t' ∧ view t = view t' := by
  obtain ⟨t', h, rfl⟩ := LRuns.say_bind hr
  exact ⟨t', h, view_faint rfl⟩

theorem opened_runs {rt : Rt} {p : Pair} {o t} (hr : LRuns (openPair rt p) o t) : Opened rt p o (view t) := by
  unfold openPair at hr
  -- the decision
  have hx : ∀ {o t}, LRuns (L.onUnwind (isExempt rt.debug p) (exiting p)) o t →
      view t = [] ∧ Runs (M.ofOption (p.isExempt rt.debug)) o [] := by
    intro o t h
    obtain ⟨t', h, hv⟩ := h.unwind_exiting
    have he := h.erase
    rw [erase_isExempt] at he
    have h0 : events t' = [] := by
      cases hi : p.isExempt rt.debug with
      | none => rw [hi] at he; exact he.panic.2
      | some b => rw [hi] at he; exact he.pure.2
    rw [h0] at he
    rw [hv, (faint_isExempt _ p).view h, h0]
    exact ⟨rfl, he⟩
  inv LRuns.bind hr with ⟨b, t1, t2, h1, hr, rfl⟩ | ⟨rfl, h1⟩ | ⟨rfl, h1⟩
  case inr.inl =>
    obtain ⟨hv, h⟩ := hx h1
    rw [hv]
    cases hi : p.isExempt rt.debug with
    | none => exact .undecided hi
    | some b => rw [hi] at h; exact absurd h.pure.1 (by simp)
  case inr.inr =>
    obtain ⟨hv, h⟩ := hx h1
    cases hi : p.isExempt rt.debug with
    | none => rw [hi] at h; exact absurd h.panic.1 (by simp)
    | some b => rw [hi] at h; exact absurd h.pure.1 (by simp)
  obtain ⟨hv, h⟩ := hx h1
  rw [view_append, hv, List.nil_append]
  have hi : p.isExempt rt.debug = some b := by
    cases hi : p.isExempt rt.debug with
    | none => rw [hi] at h; exact absurd h.panic.1 (by simp)
    | some b => rw [hi] at h; have := h.pure.1; simp only [Out.ok.injEq] at this; rw [this]
  clear h1 h hv hx
  cases b with
  | true =>
    rw [if_pos rfl] at hr
    inv LRuns.psay_bind hr with ⟨t3, hr, rfl⟩
    obtain ⟨rfl, rfl⟩ := hr.pure
    rw [view_lasting rfl]
    exact .exempt hi
  | false =>
  rw [if_neg (by decide)] at hr
  inv LRuns.psay_bind hr with ⟨t3, hr, rfl⟩
  rw [view_lasting rfl]
  split at hr
  · inv LRuns.psay_bind hr with ⟨t2, hr, rfl⟩
    rw [view_lasting rfl]
    inv LRuns.exiting_bind hr with ⟨t3, hr, hv⟩
    obtain ⟨rfl, rfl⟩ := hr.pure
    rw [hv]
    rename_i hug
    have hb : p.env.commandInfo.runasEuid ≠ p.env.userInfo.uid ∧ p.env.settings.runasGroup ≠ none := by
      simp only [Pair.toUserAndGroup, Pair.toUser, Pair.toExplicitGroup, Bool.and_eq_true, decide_eq_true_eq] at hug
      exact ⟨Ne.symm hug.1, fun h => by rw [h] at hug; exact absurd hug.2 (by decide)⟩
    exact .refused _ _ hi (Or.inr (Or.inr ⟨_, rfl⟩)) fun h e hh he _ => .conflict h e hh he hb.1 hb.2
  simp only at hr
  -- the user's prompt
  have hl : ∀ {o t}, LRuns (L.onUnwind (localPairPrompt p p.templateSpec) (exiting p)) o t →
      ∃ h, view t = acts h ∧ (∀ x ∈ h, ShowsPrompt x.call) ∧ (o = .panic → ∃ x ∈ h, Overcount x) := by
    intro o t h
    obtain ⟨t', h, hv⟩ := h.unwind_exiting
    have he := h.erase
    rw [erase_localPairPrompt] at he
    refine ⟨events t', by rw [hv]; exact (faint_localPairPrompt p _).view h, ?_, ?_⟩
    · intro e hm
      have := (localPairPrompt_quiet p _).of_runs he e hm
      rcases e with ⟨c, r⟩
      cases c <;> first | exact False.elim this | trivial
    · rintro rfl
      refine Classical.byContradiction fun hx => ?_
      rcases C45_returns_partial he (fun x hm ho => hx ⟨x, hm, ho⟩) with h | h <;> exact absurd h (by simp)
  inv LRuns.bind hr with ⟨u, t4, t5, h4, hr, rfl⟩ | ⟨rfl, h4⟩ | ⟨rfl, h4⟩
  case inr.inl =>
    obtain ⟨h, hv, hs, hov⟩ := hl h4
    rw [hv]
    refine .refused _ _ hi (Or.inl rfl) fun h' e hh he _ => ?_
    rw [List.cons_append, ← acts_append]
    obtain ⟨x, hm, ho⟩ := hov rfl
    exact .unready _ e (shows_append hs hh) he (Or.inr (Or.inl ⟨x, List.mem_append_left _ hm, ho⟩))
  case inr.inr =>
    obtain ⟨h, hv, hs, _⟩ := hl h4
    rw [hv]
    refine .refused _ _ hi (Or.inr (Or.inl rfl)) fun h' e hh he hk => ?_
    rw [List.cons_append, ← acts_append]
    exact .unready _ e (shows_append hs hh) he (Or.inl (hk rfl))
  obtain ⟨h, hv, hs, _⟩ := hl h4
  rw [view_append, hv]
  clear hv h4 hl
  -- the socket
  have hcn : ∀ {o t}, LRuns (L.onUnwind (remotePairConnect rt p) (exiting p)) o t →
      (o = .panic ∧ Detailed rt = true ∧ p.socketMode = none ∧ view t = []) ∨
      ∃ h', (∀ x ∈ h', SetsUp p.socketPath x.call) ∧
        (p.socketMode = none → Detailed rt = false ∧ h' = []) ∧
        (((o = .panic ∨ o = .killed ∨ ∃ e, o = .ok (.error e)) ∧
          view t = mark p.env .info (b! "socket waiting for pair to connect...")
            [(b! "socket_path", .text p.socketPath)] :: acts h') ∨
        ∃ fd, o = .ok (.ok fd) ∧ p.socketMode ≠ none ∧
          view t = mark p.env .info (b! "socket waiting for pair to connect...")
            [(b! "socket_path", .text p.socketPath)] :: acts h' ++
            [mark p.env .info (b! "socket connected") [(b! "socket_path", .text p.socketPath)]]) := by
    intro o t hr
    inv LRuns.unwind_exiting hr with ⟨t', hr, hv⟩
    rw [hv]
    clear hv t
    unfold remotePairConnect at hr
    inv LRuns.bind hr with ⟨_, t1, t2, hi, hr, rfl⟩ | ⟨rfl, hi⟩ | ⟨rfl, hi⟩
    case inr.inl => exact Or.inl ⟨rfl, (initializing_panics hi).1 rfl |>.1, (initializing_panics hi).1 rfl |>.2, initializing_view hi⟩
    case inr.inr => exact absurd rfl (initializing_ends hi)
    rw [view_append, initializing_view hi, List.nil_append]
    have hi := (initializing_panics hi).2
    inv LRuns.say_bind hr with ⟨t1, hr, rfl⟩
    right
    rw [view_lasting rfl]
    cases hsm : p.socketMode with
    | none =>
      rw [hsm] at hr
      obtain ⟨rfl, rfl⟩ : o = .panic ∧ t1 = [] := by
        obtain ⟨s, h1, h2⟩ := hr
        exact ⟨h1.symm, h2.symm⟩
      refine ⟨[], by simp, fun _ => ⟨?_, rfl⟩, Or.inl ⟨Or.inl rfl, rfl⟩⟩
      cases hd : Detailed rt with
      | false => rfl
      | true => exact absurd (hi ⟨hd, hsm⟩) (by simp)
    | some mode =>
    rw [hsm] at hr
    replace hr : LRuns (L.lift (Socket.open' rt p.socketPath p.socketUid p.socketGid mode) >>= _) o t1 := hr
    inv LRuns.lift_bind hr with ⟨c, h2, t2, ho, hr, rfl⟩ | ⟨rfl, h2, ho, rfl⟩ | ⟨rfl, h2, ho, rfl⟩
    case inr.inl => exact ⟨h2, (setsUp_open _ _ _ _ _).of_runs ho, by simp, Or.inl ⟨Or.inl rfl, by rw [view_acts']; rfl⟩⟩
    case inr.inr => exact ⟨h2, (setsUp_open _ _ _ _ _).of_runs ho, by simp, Or.inl ⟨Or.inr (Or.inl rfl), by rw [view_acts']; rfl⟩⟩
    refine ⟨h2, (setsUp_open _ _ _ _ _).of_runs ho, by simp, ?_⟩
    cases c with
    | none =>
      obtain ⟨rfl, rfl⟩ := hr.pure
      exact Or.inl ⟨Or.inr (Or.inr ⟨_, rfl⟩), by rw [List.append_nil, view_acts']; rfl⟩
    | some conn =>
      simp only at hr
      inv LRuns.say_bind hr with ⟨t3, hr, rfl⟩
      obtain ⟨rfl, rfl⟩ := hr.pure
      refine Or.inr ⟨conn.fd, rfl, by simp, ?_⟩
      rw [view_append, view_acts', view_lasting rfl]
      rfl
  have unready : ∀ (o : Out (Except ErrorKind Pair)), Detailed rt = true → p.socketMode = none → (o = .panic ∨ o = .killed ∨ ∃ e, o = .ok (.error e)) →
      Opened rt p o (mark p.env .info (b! "pair session required") :: (acts h ++ [])) := by
    intro o hd hsm ho
    refine .refused _ _ hi ho fun h' e hh he _ => ?_
    rw [List.append_nil, List.cons_append, ← acts_append]
    exact .unready _ e (shows_append hs hh) he (Or.inr (Or.inr ⟨hd, (nobody_iff p).1 hsm⟩))
  have unconnected : ∀ (o : Out (Except ErrorKind Pair)) (h' : Hist), (∀ x ∈ h', SetsUp p.socketPath x.call) →
      (p.socketMode = none → Detailed rt = false ∧ h' = []) → (o = .panic ∨ o = .killed ∨ ∃ e, o = .ok (.error e)) →
      Opened rt p o (mark p.env .info (b! "pair session required") :: (acts h ++
        (mark p.env .info (b! "socket waiting for pair to connect...") [(b! "socket_path", .text p.socketPath)] ::
          acts h'))) := by
    intro o h' hsu hno ho
    refine .refused _ _ hi ho fun h'' e hh he _ => ?_
    have := Story.unconnected (detailed := Detailed rt) (E := p.env) (path := p.socketPath) h h' h'' e hs hsu hh he
      (fun h => hno ((nobody_iff p).2 h))
    simpa only [List.append_assoc, List.cons_append] using this
  inv LRuns.bind hr with ⟨r, t6, t7, h6, hr, rfl⟩ | ⟨rfl, h6⟩ | ⟨rfl, h6⟩
  case inr.inl =>
    rcases hcn h6 with ⟨_, hd, hsm, hv⟩ | ⟨h', hsu, hno, ⟨_, hv⟩ | ⟨_, h, _⟩⟩
    · rw [hv]; exact unready _ hd hsm (Or.inl rfl)
    · rw [hv]; exact unconnected _ h' hsu hno (Or.inl rfl)
    · exact absurd h (by simp)
  case inr.inr =>
    rcases hcn h6 with ⟨h, _⟩ | ⟨h', hsu, hno, ⟨_, hv⟩ | ⟨_, h, _⟩⟩
    · exact absurd h (by simp)
    · rw [hv]; exact unconnected _ h' hsu hno (Or.inr (Or.inl rfl))
    · exact absurd h (by simp)
  rw [view_append]
  cases r with
  | error e =>
    simp only at hr
    inv LRuns.exiting_bind hr with ⟨t8, hr, hv8⟩
    obtain ⟨rfl, rfl⟩ := hr.pure
    rw [hv8, show view [] = [] from rfl, List.append_nil]
    rcases hcn h6 with ⟨h, _⟩ | ⟨h', hsu, hno, ⟨_, hv⟩ | ⟨_, h, _⟩⟩
    · exact absurd h (by simp)
    · rw [hv]; exact unconnected _ h' hsu hno (Or.inr (Or.inr ⟨_, rfl⟩))
    · exact absurd h (by simp)
  | ok fd =>
  simp only at hr
  rcases hcn h6 with ⟨h, _⟩ | ⟨h', hsu, _, ⟨h, _⟩ | ⟨fd', hfd, hsm, hv⟩⟩
  · exact absurd h (by simp)
  · rcases h with h | h | ⟨e, h⟩ <;> exact absurd h (by simp)
  simp only [Out.ok.injEq, Except.ok.injEq] at hfd
  subst hfd
  rw [hv]
  clear hv h6 hcn unready unconnected
  have hno : ¬ Nobody p.env := fun h => hsm ((nobody_iff p).2 h)
  -- the conversation
  have unanswered : ∀ (o : Out (Except ErrorKind Pair)) (talk lv : Hist), (∀ x ∈ talk, Talks fd x.call) →
      (∀ x ∈ lv, Leaves fd x.call) → (o = .panic ∨ o = .killed ∨ ∃ e, o = .ok (.error e)) →
      (o = .killed ∨ answers talk = [] ∨ Misread talk ∨ ∃ x ∈ talk, Overcount x) →
      Opened rt p o (mark p.env .info (b! "pair session required") :: (acts h ++
        (mark p.env .info (b! "socket waiting for pair to connect...") [(b! "socket_path", .text p.socketPath)] ::
          acts h' ++ [mark p.env .info (b! "socket connected") [(b! "socket_path", .text p.socketPath)]] ++
          (acts talk ++ acts lv)))) := by
    intro o talk lv ht hlv ho hk
    refine .refused _ _ hi ho fun h'' e hh he hkc => ?_
    have := Story.unanswered (detailed := Detailed rt) (E := p.env) (path := p.socketPath) h h' talk (lv ++ h'') fd e hs hsu ht
      (List.forall_mem_append.2 ⟨hlv, leaves_tells hh⟩) hno he
      (by rcases hk with hk | hk | hk | hk
          · exact Or.inr (Or.inl (hkc hk))
          · exact Or.inl hk
          · exact Or.inr (Or.inr (Or.inl hk))
          · exact Or.inr (Or.inr (Or.inr hk)))
    simpa only [List.append_assoc, List.cons_append, List.nil_append, acts_append] using this
  have declined : ∀ (o : Out (Except ErrorKind Pair)) (talk lv : Hist) (b : Option UInt8),
      (∀ x ∈ talk, Talks fd x.call) → answers talk = [b] → b ≠ some 121 → b ≠ some 89 →
      (∀ x ∈ lv, Leaves fd x.call) → (o = .panic ∨ o = .killed ∨ ∃ e, o = .ok (.error e)) →
      Opened rt p o (mark p.env .info (b! "pair session required") :: (acts h ++
        (mark p.env .info (b! "socket waiting for pair to connect...") [(b! "socket_path", .text p.socketPath)] ::
          acts h' ++ [mark p.env .info (b! "socket connected") [(b! "socket_path", .text p.socketPath)]] ++
          (acts talk ++ [mark p.env .warning (b! "remote pair declined session")] ++ acts lv)))) := by
    intro o talk lv b ht ha hb1 hb2 hlv ho
    refine .refused _ _ hi ho fun h'' e hh he hkc => ?_
    have := Story.declined (detailed := Detailed rt) (E := p.env) (path := p.socketPath) h h' talk (lv ++ h'') fd b e hs hsu ht
      (List.forall_mem_append.2 ⟨hlv, leaves_tells hh⟩) hno he ha hb1 hb2
    simpa only [List.append_assoc, List.cons_append, List.nil_append, acts_append] using this
  have hcl : ∀ {o h}, Runs (Socket.close fd) o h →
      (o = .killed ∨ o = .ok ()) ∧ ∀ x ∈ h, Leaves fd x.call := by
    intro o h hc
    rcases close_runs hc with ⟨rfl, rfl⟩ | ⟨b, rfl, rfl⟩
    · exact ⟨Or.inl rfl, by simp⟩
    · exact ⟨Or.inr rfl, by simp [Leaves]⟩
  inv LRuns.onUnwind hr with ⟨hr, _⟩ | ⟨t8, t9, o2, hr, hc, rfl, ho⟩
  · inv LRuns.bind hr with ⟨r, t8, t9, h8, hr, rfl⟩ | ⟨rfl, h8⟩ | ⟨rfl, h8⟩
    case inr.inl => rename_i hne; exact absurd rfl hne
    case inr.inr =>
      have ht := talk_runs h8
      generalize view t7 = v at ht
      cases ht with
      | cut talk ht =>
        have := unanswered .killed talk [] ht (by simp) (Or.inr (Or.inl rfl)) (Or.inl rfl)
        rwa [show acts [] = [] from rfl, List.append_nil] at this
    rw [view_append]
    have ht := talk_runs h8
    generalize view t8 = v at ht
    rcases r with e | u
    · simp only at hr
      inv LRuns.exiting_bind hr with ⟨t10, hr, hv10⟩
      rw [hv10]
      have hlv : ∃ lv, view t10 = acts lv ∧ (∀ x ∈ lv, Leaves fd x.call) ∧ (o = .killed ∨ o = .ok (.error e)) := by
        inv LRuns.lift_bind hr with ⟨u, lv, t11, hc, hr, rfl⟩ | ⟨rfl, lv, hc, rfl⟩ | ⟨rfl, lv, hc, rfl⟩
        · obtain ⟨rfl, rfl⟩ := hr.pure
          exact ⟨lv, by rw [List.append_nil, view_acts'], (hcl hc).2, Or.inr rfl⟩
        · rcases (hcl hc).1 with h | h <;> exact absurd h (by simp)
        · exact ⟨lv, view_acts' _, (hcl hc).2, Or.inl rfl⟩
      obtain ⟨lv, hlv, hlc, ho⟩ := hlv
      rw [hlv]
      have ho : o = .panic ∨ o = .killed ∨ ∃ e, o = .ok (.error e) := by
        rcases ho with rfl | rfl
        · exact Or.inr (Or.inl rfl)
        · exact Or.inr (Or.inr ⟨e, rfl⟩)
      cases ht with
      | none talk _ ht ha =>
        refine unanswered o talk lv ht hlc ho ?_
        rcases ha with ha | ha
        · exact Or.inr (Or.inl ha)
        · exact Or.inr (Or.inr (Or.inl ha))
      | no talk b _ ht ha hb1 hb2 => exact declined o talk lv b ht ha hb1 hb2 hlc ho
    · simp only at hr
      inv LRuns.psay_bind hr with ⟨t10, hr, rfl⟩
      obtain ⟨rfl, rfl⟩ := hr.pure
      rw [view_lasting rfl]
      cases ht with
      | yes talk b ht ha hb =>
        refine .granted fd _ hi fun lv e hlv he => ?_
        have := Story.approved (detailed := Detailed rt) (E := p.env) (path := p.socketPath) h h' talk lv fd b e hs hsu ht hlv hno he ha hb
        simp only [List.append_assoc, List.cons_append, List.nil_append] at this ⊢
        exact this
  · rw [view_append]
    have hlv : ∃ lv, view t9 = acts lv ∧ (∀ x ∈ lv, Leaves fd x.call) ∧ o2 = o2 := by
      inv LRuns.exiting_bind hc with ⟨t11, hc, hv⟩
      obtain ⟨lv, hc', rfl⟩ := hc.lift
      exact ⟨lv, by rw [hv]; exact view_acts lv, (hcl hc').2, rfl⟩
    obtain ⟨lv, hlv, hlc, _⟩ := hlv
    rw [hlv]
    have ho : o = .panic ∨ o = .killed ∨ ∃ e, o = .ok (.error e) := by
      rcases ho with ⟨_, rfl⟩ | ⟨_, rfl⟩
      · exact Or.inr (Or.inl rfl)
      · exact Or.inl rfl
    inv LRuns.bind hr with ⟨r, t10, t11, h8, hr, rfl⟩ | ⟨_, h8⟩ | ⟨h8, _⟩
    · rcases r with e | u
      · simp only at hr
        inv LRuns.exiting_bind hr with ⟨t10, hr, hv10⟩
        inv LRuns.lift_bind hr with ⟨u, lv, t11, hc, hr, rfl⟩ | ⟨_, lv, hc, rfl⟩ | ⟨h, _⟩
        · exact absurd hr.pure.1 (by simp)
        · rcases (hcl hc).1 with h | h <;> exact absurd h (by simp)
        · exact absurd h (by simp)
      · simp only at hr
        inv LRuns.psay_bind hr with ⟨t10, hr, rfl⟩
        exact absurd hr.pure.1 (by simp)
    · have ht := talk_runs h8
      generalize view t8 = v at ht
      cases ht with
      | crash talk ht hx => exact unanswered o talk lv ht hlc ho (Or.inr (Or.inr (Or.inr hx)))
    · exact absurd h8 (by simp)

theorem audit_open_runs {rt : Rt} {env : IoEnv} {o t} (hr : LRuns (Audit.open rt env) o t) :
    Opened rt (Pair.ofEnv env) o (view t) := by
  unfold Audit.open at hr
  simp only at hr
  inv LRuns.say_bind hr with ⟨t1, hr, rfl⟩
  inv LRuns.psay_bind hr with ⟨t2, hr, rfl⟩
  rw [view_faint rfl, view_faint rfl]
  exact opened_runs hr

/-- How the `open` callback goes. -/
inductive CoreOpened (rt : Rt) (a : OpenArgs) (st : State) : Out (Int × State) → List Entry → Prop
  | rejected (o : Out (Int × State)) (h : Hist) : (∀ env0, IoEnv.new rt a ≠ some (.ok env0)) →
      CoreOpened rt a st o (acts h)
  | empty (env0 : IoEnv) (o : Out (Int × State)) : IoEnv.new rt a = some (.ok env0) →
      (effEnv st env0).commandInfo.command = [] → CoreOpened rt a st o []
  | undecided (env0 : IoEnv) (o : Out (Int × State)) : IoEnv.new rt a = some (.ok env0) →
      (effEnv st env0).commandInfo.command ≠ [] → (Pair.ofEnv (effEnv st env0)).isExempt rt.debug = none →
      CoreOpened rt a st o []
  | exempt (env0 : IoEnv) (st' : State) : IoEnv.new rt a = some (.ok env0) →
      (effEnv st env0).commandInfo.command ≠ [] → (Pair.ofEnv (effEnv st env0)).isExempt rt.debug = some true →
      (∀ q, st'.plugin = some q → st.plugin = some q ∨ q.socket = none) →
      CoreOpened rt a st (.ok (1, st'))
        [mark (effEnv st env0) .info (b! "pair session exempt from pairing requirements")]
  | told (env0 : IoEnv) (o : Out (Int × State)) (t : List Entry) : IoEnv.new rt a = some (.ok env0) →
      (effEnv st env0).commandInfo.command ≠ [] → (Pair.ofEnv (effEnv st env0)).isExempt rt.debug = some false →
      Story (Detailed rt) (effEnv st env0) (Pair.ofEnv (effEnv st env0)).socketPath (ending o) t →
      CoreOpened rt a st o t

theorem prints_tells {h : Hist} (hp : Prints h) : ∀ x ∈ h, TellsUser x.call := hp

theorem coreOpened_runs {rt a st o t} (hr : LRuns (Core.open rt a st) o t) : CoreOpened rt a st o (view t) := by
  unfold Core.open at hr
  have hEnv : ∀ {o h}, Runs (M.catchUnwind (SudoPair.Core.makeEnv rt a)) o h →
      ((∀ env0, IoEnv.new rt a ≠ some (.ok env0)) ∧ ∀ env0, o ≠ .ok (some (.ok env0))) ∨
      (∃ env0, IoEnv.new rt a = some (.ok env0) ∧ o = .ok (some (.ok env0)) ∧ h = []) := by
    intro o h hc
    unfold SudoPair.Core.makeEnv at hc
    cases hn : IoEnv.new rt a with
    | none =>
      left
      rw [hn] at hc
      refine ⟨by simp, ?_⟩
      rintro env0 rfl
      rcases hc.catchUnwind with ⟨x, h1, h2⟩ | ⟨h1, _⟩ | ⟨h1, _⟩
      · rcases h2.bind with ⟨_, _, _, h3, _⟩ | ⟨h3, _⟩ | ⟨h3, _⟩
        · exact absurd h3.panic.1 (by simp)
        · exact absurd h3 (by simp)
        · exact absurd h3 (by simp)
      · exact absurd h1 (by simp)
      · exact absurd h1 (by simp)
    | some r =>
      rw [hn, ofOption_some_bind] at hc
      cases r with
      | error e =>
        left
        refine ⟨by simp, ?_⟩
        rintro env0 rfl
        rcases hc.catchUnwind with ⟨x, h1, h2⟩ | ⟨h1, _⟩ | ⟨h1, _⟩
        · simp only [Out.ok.injEq, Option.some.injEq] at h1
          subst h1
          simp only at h2
          rcases h2.bind with ⟨_, _, _, _, h3, _⟩ | ⟨h3, _⟩ | ⟨h3, _⟩
          · exact absurd h3.pure.1 (by simp)
          · exact absurd h3 (by simp)
          · exact absurd h3 (by simp)
        · exact absurd h1 (by simp)
        · exact absurd h1 (by simp)
      | ok env0 =>
        right
        rcases hc.catchUnwind with ⟨x, rfl, h2⟩ | ⟨_, h2⟩ | ⟨_, h2⟩
        · obtain ⟨h3, rfl⟩ := h2.pure
          simp only [Out.ok.injEq] at h3; subst h3
          exact ⟨env0, rfl, rfl, rfl⟩
        · exact absurd h2.pure.1 (by simp)
        · exact absurd h2.pure.1 (by simp)
  inv LRuns.lift_bind hr with ⟨x, h1, t1, hm, hr, rfl⟩ | ⟨rfl, h1, hm, rfl⟩ | ⟨rfl, h1, hm, rfl⟩
  case inr.inl =>
    rcases hEnv hm with ⟨hn, _⟩ | ⟨_, _, h, _⟩
    · rw [view_acts']; exact .rejected _ _ hn
    · exact absurd h (by simp)
  case inr.inr =>
    rcases hEnv hm with ⟨hn, _⟩ | ⟨_, _, h, _⟩
    · rw [view_acts']; exact .rejected _ _ hn
    · exact absurd h (by simp)
  rw [view_append, view_acts']
  rcases x with _ | x
  · simp only at hr
    obtain ⟨rfl, rfl⟩ := hr.pure
    rw [show view [] = [] from rfl, List.append_nil]
    rcases hEnv hm with ⟨hn, _⟩ | ⟨_, _, h, _⟩
    · exact .rejected _ _ hn
    · exact absurd h (by simp)
  rcases x with n | env1
  · simp only at hr
    obtain ⟨rfl, rfl⟩ := hr.pure
    rw [show view [] = [] from rfl, List.append_nil]
    rcases hEnv hm with ⟨hn, _⟩ | ⟨_, _, h, _⟩
    · exact .rejected _ _ hn
    · exact absurd h (by simp)
  rcases hEnv hm with ⟨_, h⟩ | ⟨env0, hn, h, rfl⟩
  · exact absurd rfl (h _)
  simp only [Out.ok.injEq, Option.some.injEq, Except.ok.injEq] at h
  subst h
  rw [show acts [] = [] from rfl, List.nil_append]
  clear hm hEnv
  simp only at hr
  generalize hE : st.env.getD env1 = E at hr
  have hE' : effEnv st env1 = E := hE
  -- the plugin
  have hpl : ∀ {o t}, LRuns (L.catchUnwind (Core.makePlugin rt a.hasPrintf E)) o t →
      (E.commandInfo.command = [] ∧ o = .ok (some (.error 1)) ∧ view t = []) ∨
      (E.commandInfo.command ≠ [] ∧
        ((o = .ok none ∧ (Pair.ofEnv E).isExempt rt.debug = none ∧ view t = []) ∨
         (∃ p, o = .ok (some (.ok p)) ∧ Opened rt (Pair.ofEnv E) (.ok (.ok p)) (view t)) ∨
         ((Pair.ofEnv E).isExempt rt.debug = some false ∧
          ((o = .killed ∧ Story (Detailed rt) E (Pair.ofEnv E).socketPath .cut (view t)) ∨
           ((o = .ok none ∨ o = .ok (some (.error (-1)))) ∧
             Story (Detailed rt) E (Pair.ofEnv E).socketPath .refused (view t)))))) := by
    intro o t hc
    -- what a refused opening leaves, with what the user is told
    have ref : ∀ {o : Out (Except ErrorKind Pair)} {t : List Entry} (h : Hist) (e : Ending),
        Opened rt (Pair.ofEnv E) o (view t) → (o = .killed ∨ ∃ x, o = .ok (.error x)) →
        (∀ x ∈ h, TellsUser x.call) → e ≠ .granted → (o = .killed → e = .cut) →
        (Pair.ofEnv E).isExempt rt.debug = some false ∧
        Story (Detailed rt) E (Pair.ofEnv E).socketPath e (view t ++ acts h) := by
      intro o t h e ho hor hh he hk
      generalize view t = v at ho
      cases ho with
      | undecided h' => rcases hor with h | ⟨x, h⟩ <;> exact absurd h (by simp)
      | exempt h' => rcases hor with h | ⟨x, h⟩ <;> exact absurd h (by simp)
      | refused _ _ hi _ hs => exact ⟨hi, hs h e hh he hk⟩
      | granted fd _ hi _ => rcases hor with h | ⟨x, h⟩ <;> exact absurd h (by simp)
    have key : ∀ {o t}, LRuns (Core.makePlugin rt a.hasPrintf E) o t →
      (E.commandInfo.command = [] ∧ o = .ok (.error 1) ∧ view t = []) ∨
      (E.commandInfo.command ≠ [] ∧
        ((o = .panic ∧ (Pair.ofEnv E).isExempt rt.debug = none ∧ view t = []) ∨
         (∃ p, o = .ok (.ok p) ∧ Opened rt (Pair.ofEnv E) (.ok (.ok p)) (view t)) ∨
         ((Pair.ofEnv E).isExempt rt.debug = some false ∧
          ((o = .killed ∧ Story (Detailed rt) E (Pair.ofEnv E).socketPath .cut (view t)) ∨
           ((o = .panic ∨ o = .ok (.error (-1))) ∧
             Story (Detailed rt) E (Pair.ofEnv E).socketPath .refused (view t)))))) := by
      intro o t hm
      unfold Core.makePlugin at hm
      split at hm
      · rename_i hp
        obtain ⟨rfl, rfl⟩ := hm.pure
        exact Or.inl ⟨(path_eq_nil _).1 hp, rfl, rfl⟩
      · rename_i hp
        refine Or.inr ⟨fun h => hp ((path_eq_nil _).2 h), ?_⟩
        inv LRuns.bind hm with ⟨x, t1, t2, h1, hm, rfl⟩ | ⟨rfl, h1⟩ | ⟨rfl, h1⟩
        · have h1 := audit_open_runs h1
          rcases x with e | p
          · right; right
            inv LRuns.lift_bind hm with ⟨u, h2, t3, hw, hm, rfl⟩ | ⟨rfl, h2, hw, rfl⟩ | ⟨rfl, h2, hw, rfl⟩
            · obtain ⟨rfl, rfl⟩ := hm.pure
              have := ref h2 .refused h1 (Or.inr ⟨e, rfl⟩) (prints_tells ((writeError_prints _ _ _).of_runs hw))
                (by decide) (by simp)
              rw [view_append, List.append_nil, view_acts']
              exact ⟨this.1, Or.inr ⟨Or.inr rfl, this.2⟩⟩
            · have := ref h2 .refused h1 (Or.inr ⟨e, rfl⟩) (prints_tells ((writeError_prints _ _ _).of_runs hw))
                (by decide) (by simp)
              rw [view_append, view_acts']
              exact ⟨this.1, Or.inr ⟨Or.inl rfl, this.2⟩⟩
            · have := ref h2 .cut h1 (Or.inr ⟨e, rfl⟩) (prints_tells ((writeError_prints _ _ _).of_runs hw))
                (by decide) (by simp)
              rw [view_append, view_acts']
              exact ⟨this.1, Or.inl ⟨rfl, this.2⟩⟩
          · obtain ⟨rfl, rfl⟩ := hm.pure
            rw [List.append_nil]
            exact Or.inr (Or.inl ⟨p, rfl, h1⟩)
        · have h1 := audit_open_runs h1
          generalize view t = v at h1
          cases h1 with
          | undecided h => exact Or.inl ⟨rfl, h, rfl⟩
          | refused _ _ hi _ hs =>
            have := hs [] .refused (by simp) (by decide) (by simp)
            rw [show acts [] = [] from rfl, List.append_nil] at this
            exact Or.inr (Or.inr ⟨hi, Or.inr ⟨Or.inl rfl, this⟩⟩)
        · have := ref [] .cut (audit_open_runs h1) (Or.inl rfl) (by simp) (by decide) (by simp)
          rw [show acts [] = [] from rfl, List.append_nil] at this
          exact Or.inr (Or.inr ⟨this.1, Or.inl ⟨rfl, this.2⟩⟩)
    inv LRuns.catchUnwind hc with ⟨x, rfl, hm⟩ | ⟨rfl, hm⟩ | ⟨rfl, hm⟩
    · rcases key hm with ⟨h1, h2, h3⟩ | ⟨h0, ⟨h, _⟩ | ⟨p, h, h1⟩ | ⟨hi, ⟨h, _⟩ | ⟨h | h, h1⟩⟩⟩
      · simp only [Out.ok.injEq] at h2; subst h2; exact Or.inl ⟨h1, rfl, h3⟩
      · exact absurd h (by simp)
      · simp only [Out.ok.injEq] at h; subst h; exact Or.inr ⟨h0, Or.inr (Or.inl ⟨p, rfl, h1⟩)⟩
      · exact absurd h (by simp)
      · exact absurd h (by simp)
      · simp only [Out.ok.injEq] at h; subst h; exact Or.inr ⟨h0, Or.inr (Or.inr ⟨hi, Or.inr ⟨Or.inr rfl, h1⟩⟩)⟩
    · rcases key hm with ⟨h1, h2, h3⟩ | ⟨h0, ⟨_, h1, h2⟩ | ⟨p, h, h1⟩ | ⟨hi, ⟨h, _⟩ | ⟨_, h1⟩⟩⟩
      · exact absurd h2 (by simp)
      · exact Or.inr ⟨h0, Or.inl ⟨rfl, h1, h2⟩⟩
      · exact absurd h (by simp)
      · exact absurd h (by simp)
      · exact Or.inr ⟨h0, Or.inr (Or.inr ⟨hi, Or.inr ⟨Or.inl rfl, h1⟩⟩)⟩
    · rcases key hm with ⟨h1, h2, h3⟩ | ⟨h0, ⟨h, _⟩ | ⟨p, h, h1⟩ | ⟨hi, ⟨_, h1⟩ | ⟨h | h, h1⟩⟩⟩
      · exact absurd h2 (by simp)
      · exact absurd h (by simp)
      · exact absurd h (by simp)
      · exact Or.inr ⟨h0, Or.inr (Or.inr ⟨hi, Or.inl ⟨rfl, h1⟩⟩)⟩
      · exact absurd h (by simp)
      · exact absurd h (by simp)
  inv LRuns.bind hr with ⟨x, t2, t3, h2, hr, rfl⟩ | ⟨rfl, h2⟩ | ⟨rfl, h2⟩
  case inr.inr.inl =>
    rcases hpl h2 with ⟨_, h, _⟩ | ⟨h0, ⟨h, _⟩ | ⟨p, h, _⟩ | ⟨_, ⟨h, _⟩ | ⟨h | h, _⟩⟩⟩ <;> exact absurd h (by simp)
  case inr.inr.inr =>
    rcases hpl h2 with ⟨_, h, _⟩ | ⟨h0, ⟨h, _⟩ | ⟨p, h, _⟩ | ⟨hi, ⟨_, hs⟩ | ⟨h | h, _⟩⟩⟩
    · exact absurd h (by simp)
    · exact absurd h (by simp)
    · exact absurd h (by simp)
    · rw [← hE'] at h0 hi hs; exact .told env1 _ _ hn h0 hi hs
    · exact absurd h (by simp)
    · exact absurd h (by simp)
  rw [view_append]
  rcases hpl h2 with ⟨h0, h, hv⟩ | ⟨h0, ⟨h, hi, hv⟩ | ⟨p, h, ho⟩ | ⟨hi, ⟨h, _⟩ | ⟨h, hs⟩⟩⟩
  · simp only [Out.ok.injEq] at h; subst h
    obtain ⟨rfl, rfl⟩ := hr.pure
    rw [hv]; rw [← hE'] at h0
    exact .empty env1 _ hn h0
  · simp only [Out.ok.injEq] at h; subst h
    obtain ⟨rfl, rfl⟩ := hr.pure
    rw [hv]; rw [← hE'] at h0 hi
    exact .undecided env1 _ hn h0 hi
  · simp only [Out.ok.injEq] at h; subst h
    simp only at hr
    -- what remains to be done when there was a plugin already
    have hdr : ∀ {o t}, LRuns (drop p) o t → ∃ lv, view t = acts lv ∧ o ≠ .panic ∧
        (p.socket = none ∧ o = .ok () ∧ lv = [] ∨ ∃ fd, p.socket = some fd ∧ ∀ x ∈ lv, Leaves fd x.call) := by
      intro o t hd
      unfold drop at hd
      inv LRuns.exiting_bind hd with ⟨t', hd, hv⟩
      inv LRuns.lift hd with ⟨lv, hd, rfl⟩
      refine ⟨lv, by rw [hv]; exact view_acts lv, ?_⟩
      cases hs : p.socket with
      | none =>
        unfold Pair.drop at hd; rw [hs] at hd
        obtain ⟨rfl, rfl⟩ := hd.pure
        exact ⟨by simp, Or.inl ⟨rfl, rfl, rfl⟩⟩
      | some fd =>
        unfold Pair.drop at hd; rw [hs] at hd
        rcases close_runs hd with ⟨rfl, rfl⟩ | ⟨b, rfl, rfl⟩
        · exact ⟨by simp, Or.inr ⟨fd, rfl, by simp⟩⟩
        · exact ⟨by simp, Or.inr ⟨fd, rfl, by simp [Leaves]⟩⟩
    have hrest : ∃ lv, view t3 = acts lv ∧
        ((p.socket = none ∧ (∃ st', o = .ok (1, st') ∧
            ∀ q, st'.plugin = some q → st.plugin = some q ∨ q.socket = none) ∧ lv = []) ∨
         ∃ fd, p.socket = some fd ∧ (o = .killed ∨ ∃ st', o = .ok (1, st')) ∧ ∀ x ∈ lv, Leaves fd x.call) := by
      cases hpg : st.plugin with
      | none =>
        rw [hpg] at hr
        simp only at hr
        obtain ⟨rfl, rfl⟩ := hr.pure
        refine ⟨[], rfl, ?_⟩
        cases hs : p.socket with
        | none =>
          refine Or.inl ⟨rfl, ⟨_, rfl, ?_⟩, rfl⟩
          intro q hq
          simp only [Option.some.injEq] at hq
          subst hq
          exact Or.inr hs
        | some fd => exact Or.inr ⟨fd, rfl, Or.inr ⟨_, rfl⟩, by simp⟩
      | some q =>
        rw [hpg] at hr
        simp only at hr
        inv LRuns.bind hr with ⟨u, t4, t5, hd, hr, rfl⟩ | ⟨rfl, hd⟩ | ⟨rfl, hd⟩
        · obtain ⟨rfl, rfl⟩ := hr.pure
          obtain ⟨lv, hv, _, ⟨h1, _, h2⟩ | ⟨fd, h1, h2⟩⟩ := hdr hd
          · exact ⟨lv, by rw [List.append_nil, hv], Or.inl ⟨h1, ⟨_, rfl, fun q' hq' => Or.inl hq'⟩, h2⟩⟩
          · exact ⟨lv, by rw [List.append_nil, hv], Or.inr ⟨fd, h1, Or.inr ⟨_, rfl⟩, h2⟩⟩
        · obtain ⟨lv, hv, h, _⟩ := hdr hd; exact absurd rfl h
        · obtain ⟨lv, hv, _, ⟨_, h, _⟩ | ⟨fd, h1, h2⟩⟩ := hdr hd
          · exact absurd h (by simp)
          · exact ⟨lv, hv, Or.inr ⟨fd, h1, Or.inl rfl, h2⟩⟩
    obtain ⟨lv, hlv, hcase⟩ := hrest
    rw [hlv]
    clear hr hlv h2 hpl
    generalize view t2 = v at ho
    cases ho with
    | exempt hi =>
      rcases hcase with ⟨_, ⟨st', rfl, hst⟩, rfl⟩ | ⟨fd, h, _⟩
      · rw [← hE'] at h0 hi ⊢
        exact .exempt env1 st' hn h0 hi hst
      · exact absurd h (by simp [Pair.ofEnv])
    | refused _ _ _ h _ => rcases h with h | h | ⟨_, h⟩ <;> exact absurd h (by simp)
    | granted fd _ hi hs =>
      rcases hcase with ⟨h, _⟩ | ⟨fd', h, ho, hl⟩
      · exact absurd h (by simp)
      · simp only [Option.some.injEq] at h; subst h
        have : ending o = .granted ∨ ending o = .cut := by
          rcases ho with rfl | ⟨st', rfl⟩
          · exact Or.inr rfl
          · exact Or.inl rfl
        have := hs lv (ending o) hl this
        rw [← hE'] at h0 hi this
        exact .told env1 _ _ hn h0 hi this
  · exact absurd h (by simp)
  · have hst : ∃ st', o = .ok (-1, st') ∧ t3 = [] := by
      rcases h with h | h <;> simp only [Out.ok.injEq] at h <;> subst h
      · obtain ⟨rfl, rfl⟩ := hr.pure; exact ⟨_, rfl, rfl⟩
      · obtain ⟨rfl, rfl⟩ := hr.pure; exact ⟨_, rfl, rfl⟩
    obtain ⟨st', rfl, rfl⟩ := hst
    rw [show view [] = [] from rfl, List.append_nil]
    rw [← hE'] at h0 hi hs
    exact .told env1 _ _ hn h0 hi hs

end SudoPair.Audit
