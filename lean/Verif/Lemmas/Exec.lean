import Verif.Props.Gate
/-
Sequences of callbacks in one process.
-/
namespace SudoPair
open Spec Core

/-- One callback of a trace: the call, its return value, and the interactions it performed. -/
structure Item where
  call : Call
  ret  : Int
  hist : Hist

/-- `tr` is a possible sequence of completed callbacks leading from `st` to `st'`. -/
inductive Exec (rt : Rt) (st : State) : List Item → State → Prop
  | nil : Exec rt st [] st
  | snoc {tr st' c r st'' h} : Exec rt st tr st' → Runs (Core.step rt c st') (.ok (r, st'')) h →
      Exec rt st (tr ++ [⟨c, r, h⟩]) st''

theorem Exec.append {rt st tr st' tr' st''} (h : Exec rt st tr st') (h' : Exec rt st' tr' st'') :
    Exec rt st (tr ++ tr') st'' := by
  induction h' with
  | nil => simpa using h
  | snoc _ hr ih => rw [← List.append_assoc]; exact ih.snoc hr

theorem Exec.cons {rt st c r st' h tr st''} (hr : Runs (Core.step rt c st) (.ok (r, st')) h)
    (h' : Exec rt st' tr st'') : Exec rt st (⟨c, r, h⟩ :: tr) st'' :=
  (Exec.nil.snoc hr).append h'

theorem Exec.inv_snoc {rt st tr x st''} (h : Exec rt st (tr ++ [x]) st'') :
    ∃ st', Exec rt st tr st' ∧ Runs (Core.step rt x.call st') (.ok (x.ret, st'')) x.hist := by
  generalize ht : tr ++ [x] = t at h
  cases h with
  | nil => simp at ht
  | snoc h1 h2 =>
    obtain ⟨rfl, h3⟩ := List.append_inj' ht rfl
    simp only [List.cons.injEq, and_true] at h3
    subst h3
    exact ⟨_, h1, h2⟩

theorem Exec.split {rt st st'' tr tr'} (h : Exec rt st (tr ++ tr') st'') :
    ∃ st', Exec rt st tr st' ∧ Exec rt st' tr' st'' := by
  generalize ht : tr ++ tr' = t at h
  induction h generalizing tr' with
  | nil =>
    obtain ⟨rfl, rfl⟩ := List.append_eq_nil_iff.1 ht
    exact ⟨st, .nil, .nil⟩
  | snoc h1 h2 ih =>
    rcases List.eq_nil_or_concat tr' with rfl | ⟨t', x, rfl⟩
    · rw [List.append_nil] at ht
      subst ht
      exact ⟨_, h1.snoc h2, .nil⟩
    · rw [List.concat_eq_append] at ht ⊢
      rw [← List.append_assoc] at ht
      obtain ⟨h3, h4⟩ := List.append_inj' ht rfl
      simp only [List.cons.injEq, and_true] at h4
      subst h4
      obtain ⟨st', h5, h6⟩ := ih h3
      exact ⟨st', h5, h6.snoc h2⟩

theorem Exec.inv_cons {rt st st'' x tr} (h : Exec rt st (x :: tr) st'') :
    ∃ st', Runs (Core.step rt x.call st) (.ok (x.ret, st')) x.hist ∧ Exec rt st' tr st'' := by
  obtain ⟨st1, h1, h2⟩ := Exec.split (tr := [x]) (tr' := tr) h
  obtain ⟨st0, h3, h4⟩ := Exec.inv_snoc (tr := []) h1
  generalize ht : ([] : List Item) = t at h3
  cases h3 with
  | nil => exact ⟨st1, h4, h2⟩
  | snoc => simp at ht

/-- Every completed run of a sequence of callbacks is such a trace. -/
theorem exec_of_run {rt cs st rs st' h} (hr : Runs (Core.run rt cs st) (.ok (rs, st')) h) :
    ∃ tr, Exec rt st tr st' ∧ tr.map Item.call = cs ∧ tr.map Item.ret = rs ∧
      h = tr.flatMap Item.hist := by
  induction cs generalizing st rs st' h with
  | nil =>
    obtain ⟨h1, rfl⟩ := hr.pure
    simp only [Out.ok.injEq, Prod.mk.injEq] at h1
    obtain ⟨rfl, rfl⟩ := h1
    exact ⟨[], .nil, rfl, rfl, rfl⟩
  | cons c cs ih =>
    unfold Core.run at hr
    inv Runs.bind hr with ⟨⟨r, st1⟩, h1, h2, hs, hr, rfl⟩ | ⟨hk, _⟩ | ⟨hk, _⟩
    · inv Runs.bind hr with ⟨⟨rs', st2⟩, h3, h4, hrun, hr, rfl⟩ | ⟨hk, _⟩ | ⟨hk, _⟩
      · obtain ⟨h5, rfl⟩ := hr.pure
        simp only [Out.ok.injEq, Prod.mk.injEq] at h5
        obtain ⟨rfl, rfl⟩ := h5
        obtain ⟨tr, h6, rfl, rfl, rfl⟩ := ih hrun
        exact ⟨⟨c, r, h1⟩ :: tr, .cons hs h6, rfl, rfl, by simp⟩
      · simp at hk
      · simp at hk
    · simp at hk
    · simp at hk

/-! ### Single steps -/

/-- Callbacks that work on the stored session. -/
def Core.Call.isLog : Call → Prop
  | .log _ _ => True
  | .changeWinsize _ _ => True
  | _ => False

theorem coreClose_runs {st : State} {o h} (hr : Runs (Core.close st) o h) :
    (o = .killed ∧ (h = [] ∨ ∃ p fd b, st.plugin = some p ∧ p.socket = some fd ∧ h = [(⟨.shutdown fd, b⟩ : Ev)])) ∨
    (o = .ok ⟨none, none⟩ ∧ h = [] ∧ ∀ p, st.plugin = some p → p.socket = none) ∨
    (∃ p fd, ∃ b b' : Bool, st.plugin = some p ∧ p.socket = some fd ∧ o = .ok ⟨none, none⟩ ∧
      h = [⟨.shutdown fd, b⟩, ⟨.shutdown fd, b'⟩]) := by
  unfold Core.close at hr
  split at hr
  · rename_i hp
    obtain ⟨rfl, rfl⟩ := Runs.pure hr
    exact Or.inr (Or.inl ⟨rfl, rfl, by simp [hp]⟩)
  · rename_i p hp
    have hclose : ∀ {o h}, Runs p.close o h →
        (o = .killed ∧ (h = [] ∨ ∃ fd b, p.socket = some fd ∧ h = [(⟨.shutdown fd, b⟩ : Ev)])) ∨
        (o = .ok () ∧ h = [] ∧ p.socket = none) ∨
        (∃ fd, ∃ b b' : Bool, p.socket = some fd ∧ o = .ok () ∧
          h = [⟨.shutdown fd, b⟩, ⟨.shutdown fd, b'⟩]) := by
      intro o h hr
      unfold Pair.close at hr
      split at hr
      · obtain ⟨rfl, rfl⟩ := hr.pure; exact Or.inr (Or.inl ⟨rfl, rfl, ‹_›⟩)
      · rename_i fd hfd
        inv Runs.bind hr with ⟨x, h1, h2, hc, hr, rfl⟩ | ⟨rfl, hc⟩ | ⟨rfl, hc⟩
        · rcases close_runs hc with ⟨h, _⟩ | ⟨b, _, rfl⟩
          · simp at h
          · rcases close_runs hr with ⟨rfl, rfl⟩ | ⟨b', rfl, rfl⟩
            · exact Or.inl ⟨rfl, Or.inr ⟨fd, b, hfd, by simp⟩⟩
            · exact Or.inr (Or.inr ⟨fd, b, b', hfd, rfl, by simp⟩)
        · rcases close_runs hc with ⟨h, _⟩ | ⟨b, h, _⟩ <;> simp at h
        · rcases close_runs hc with ⟨_, rfl⟩ | ⟨b, h, _⟩
          · exact Or.inl ⟨rfl, Or.inl rfl⟩
          · simp at h
    inv Runs.bind hr with ⟨x, h1, h2, hc, hr, rfl⟩ | ⟨rfl, hc⟩ | ⟨rfl, hc⟩
    · obtain ⟨rfl, rfl⟩ := hr.pure
      rw [List.append_nil]
      rcases hclose hc with ⟨h, _⟩ | ⟨_, rfl, h⟩ | ⟨fd, b, b', hfd, _, rfl⟩
      · simp at h
      · exact Or.inr (Or.inl ⟨rfl, rfl, by rintro q hq; rw [hp] at hq; simp only [Option.some.injEq] at hq; subst hq; exact h⟩)
      · exact Or.inr (Or.inr ⟨p, fd, b, b', hp, hfd, rfl, rfl⟩)
    · rcases hclose hc with ⟨h, _⟩ | ⟨h, _⟩ | ⟨fd, b, b', hfd, h, _⟩ <;> simp at h
    · rcases hclose hc with ⟨_, h⟩ | ⟨h, _⟩ | ⟨fd, b, b', hfd, h, _⟩
      · refine Or.inl ⟨rfl, ?_⟩
        rcases h with rfl | ⟨fd, b, hfd, rfl⟩
        · exact Or.inl rfl
        · exact Or.inr ⟨p, fd, b, hp, hfd, rfl⟩
      · simp at h
      · simp at h

theorem showVersion_runs {st : State} {o h} (hr : Runs (Core.showVersion st) o h) :
    Prints h ∧ (o = .killed ∨ o = .ok 1 ∨ o = .ok (-1)) ∧ (st.env = none → o = .ok (-1) ∧ h = []) := by
  unfold Core.showVersion at hr
  have key : ∀ {o h}, Runs (M.catchUnwind (do
      let env ← M.ofOption st.env
      let _ ← writePieces (PrintFacility.stdout env.hasPrintf) versionPieces
      pure ())) o h → Prints h ∧ (o = .killed ∨ o = .ok none ∨ o = .ok (some ())) ∧
        (st.env = none → o = .ok none ∧ h = []) := by
    intro o h hr
    have hp : ∀ {o h}, Runs (do
      let env ← M.ofOption st.env
      let _ ← writePieces (PrintFacility.stdout env.hasPrintf) versionPieces
      pure () : M Unit) o h → Prints h ∧ (st.env = none → o = .panic ∧ h = []) := by
      intro o h hr
      inv Runs.ofOption_bind hr with ⟨hn, rfl, rfl⟩ | ⟨env, he, hr⟩
      · exact ⟨by simp [Prints], fun _ => ⟨rfl, rfl⟩⟩
      · refine ⟨?_, by simp [he]⟩
        inv Runs.bind hr with ⟨b, h1, h2, hw, hr, rfl⟩ | ⟨rfl, hw⟩ | ⟨rfl, hw⟩
        · obtain ⟨rfl, rfl⟩ := hr.pure
          rw [List.append_nil]; exact (writePieces_prints _ _).of_runs hw
        · exact (writePieces_prints _ _).of_runs hw
        · exact (writePieces_prints _ _).of_runs hw
    inv Runs.catchUnwind hr with ⟨a, rfl, hm⟩ | ⟨rfl, hm⟩ | ⟨rfl, hm⟩
    · refine ⟨(hp hm).1, by simp, fun h => ?_⟩
      have := ((hp hm).2 h).1; simp at this
    · exact ⟨(hp hm).1, by simp, fun h => ⟨rfl, ((hp hm).2 h).2⟩⟩
    · refine ⟨(hp hm).1, by simp, fun h => ?_⟩
      have := ((hp hm).2 h).1; simp at this
  inv Runs.bind hr with ⟨x, h1, h2, hc, hr, rfl⟩ | ⟨rfl, hc⟩ | ⟨rfl, hc⟩
  · obtain ⟨k1, k2, k3⟩ := key hc
    rcases x with _ | ⟨⟩
    · obtain ⟨rfl, rfl⟩ := hr.pure
      rw [List.append_nil]
      exact ⟨k1, by simp [OPEN_DENY], fun h => ⟨rfl, (k3 h).2⟩⟩
    · obtain ⟨rfl, rfl⟩ := hr.pure
      rw [List.append_nil]
      refine ⟨k1, by simp [OPEN_OK], fun h => ?_⟩
      have := (k3 h).1; simp at this
  · obtain ⟨k1, k2, k3⟩ := key hc
    simp at k2
  · obtain ⟨k1, k2, k3⟩ := key hc
    refine ⟨k1, by simp, fun h => ?_⟩
    have := (k3 h).1; simp at this

/-- Steps other than `open` and `close` leave the slots alone. -/
theorem step_bind_runs {α : Type} {m : M α} {f : α → Int × State} {o h}
    (hr : Runs (do let r ← m; pure (f r)) o h) :
    (∃ r, o = .ok (f r) ∧ Runs m (.ok r) h) ∨ (o = .panic ∧ Runs m .panic h) ∨
    (o = .killed ∧ Runs m .killed h) := by
  inv Runs.bind hr with ⟨r, h1, h2, hm, hr, rfl⟩ | ⟨rfl, hm⟩ | ⟨rfl, hm⟩
  · obtain ⟨rfl, rfl⟩ := hr.pure
    rw [List.append_nil]; exact Or.inl ⟨r, rfl, hm⟩
  · exact Or.inr (Or.inl ⟨rfl, hm⟩)
  · exact Or.inr (Or.inr ⟨rfl, hm⟩)

theorem step_log_state {rt c st r st' h} (hc : c.isLog ∨ c = .showVersion)
    (hr : Runs (Core.step rt c st) (.ok (r, st')) h) : st' = st := by
  rcases c with _ | _ | _ | _ | _ <;> simp [Call.isLog] at hc
  all_goals
    rcases step_bind_runs hr with ⟨r', h1, _⟩ | ⟨h1, _⟩ | ⟨h1, _⟩
    · simp only [Out.ok.injEq, Prod.mk.injEq] at h1; exact h1.2
    · simp at h1
    · simp at h1

/-- A log step with no session stored. -/
theorem step_log_none {rt c st o h} (hc : c.isLog) (hn : st.env = none ∨ st.plugin = none)
    (hr : Runs (Core.step rt c st) o h) : o = .ok (0, st) ∧ h = [] := by
  rcases c with _ | _ | _ | ⟨f, buf⟩ | ⟨l, cc⟩ <;> simp [Call.isLog] at hc
  · rcases step_bind_runs hr with ⟨r', rfl, hm⟩ | ⟨_, hm⟩ | ⟨_, hm⟩ <;>
      have := log_none_runs hn hm <;> simp at this
    obtain ⟨rfl, rfl⟩ := this; exact ⟨rfl, rfl⟩
  · rcases step_bind_runs hr with ⟨r', rfl, hm⟩ | ⟨_, hm⟩ | ⟨_, hm⟩ <;>
      have := changeWinsize_none_runs hn hm <;> simp at this
    obtain ⟨rfl, rfl⟩ := this; exact ⟨rfl, rfl⟩

end SudoPair
