import Verif.Lemmas.Handshake
import Verif.Props.Path
/-
The possible runs of the callbacks.
-/
namespace SudoPair
open Core

/-- The environment `open` works on: the one already stored, if any (io_state.rs:58). -/
abbrev effEnv (st : State) (env0 : IoEnv) : IoEnv := st.env.getD env0

/-- The slots after the environment was stored. -/
abbrev withEnv (st : State) (env0 : IoEnv) : State := { st with env := some (effEnv st env0) }

theorem drop_runs {p : Pair} {o h} (hr : Runs p.drop o h) :
    (o = .killed ∧ h = []) ∨ (p.socket = none ∧ o = .ok () ∧ h = []) ∨
    ∃ fd, ∃ b : Bool, p.socket = some fd ∧ o = .ok () ∧ h = [⟨.shutdown fd, b⟩] := by
  unfold Pair.drop at hr
  split at hr
  · obtain ⟨rfl, rfl⟩ := hr.pure; exact Or.inr (Or.inl ⟨‹_›, rfl, rfl⟩)
  · rcases close_runs hr with ⟨rfl, rfl⟩ | ⟨b, rfl, rfl⟩
    · exact Or.inl ⟨rfl, rfl⟩
    · exact Or.inr (Or.inr ⟨_, b, ‹_›, rfl, rfl⟩)

/-- Runs of the `open` callback. -/
inductive CoreOpen (rt : Rt) (a : OpenArgs) (st : State) : Out (Int × State) → Hist → Prop
  | envPanic : IoEnv.new rt a = none → CoreOpen rt a st (.ok (-1, st)) []
  | envErr {e h} : IoEnv.new rt a = some (.error e) → Prints h → CoreOpen rt a st (.ok (-1, st)) h
  | envKilled {e h} : IoEnv.new rt a = some (.error e) → Prints h → CoreOpen rt a st .killed h
  | empty {env0} : IoEnv.new rt a = some (.ok env0) → (effEnv st env0).commandInfo.command = [] →
      CoreOpen rt a st (.ok (1, withEnv st env0)) []
  | panic {env0 h} : IoEnv.new rt a = some (.ok env0) → (effEnv st env0).commandInfo.command ≠ [] →
      PairOpen rt (Pair.ofEnv (effEnv st env0)) .panic h →
      CoreOpen rt a st (.ok (-1, withEnv st env0)) h
  | killed {env0 h} : IoEnv.new rt a = some (.ok env0) → (effEnv st env0).commandInfo.command ≠ [] →
      PairOpen rt (Pair.ofEnv (effEnv st env0)) .killed h → CoreOpen rt a st .killed h
  | refused {env0 e h1 h2} : IoEnv.new rt a = some (.ok env0) →
      (effEnv st env0).commandInfo.command ≠ [] →
      PairOpen rt (Pair.ofEnv (effEnv st env0)) (.ok (.error e)) h1 → Prints h2 →
      CoreOpen rt a st (.ok (-1, withEnv st env0)) (h1 ++ h2)
  | refusedKilled {env0 e h1 h2} : IoEnv.new rt a = some (.ok env0) →
      (effEnv st env0).commandInfo.command ≠ [] →
      PairOpen rt (Pair.ofEnv (effEnv st env0)) (.ok (.error e)) h1 → Prints h2 →
      CoreOpen rt a st .killed (h1 ++ h2)
  | accepted {env0 p h} : IoEnv.new rt a = some (.ok env0) →
      (effEnv st env0).commandInfo.command ≠ [] →
      PairOpen rt (Pair.ofEnv (effEnv st env0)) (.ok (.ok p)) h → st.plugin = none →
      CoreOpen rt a st (.ok (1, { withEnv st env0 with plugin := some p })) h
  | again {env0 p q h h2} : IoEnv.new rt a = some (.ok env0) →
      (effEnv st env0).commandInfo.command ≠ [] →
      PairOpen rt (Pair.ofEnv (effEnv st env0)) (.ok (.ok p)) h → st.plugin = some q →
      Runs p.drop (.ok ()) h2 →
      CoreOpen rt a st (.ok (1, withEnv st env0)) (h ++ h2)
  | againKilled {env0 p q h} : IoEnv.new rt a = some (.ok env0) →
      (effEnv st env0).commandInfo.command ≠ [] →
      PairOpen rt (Pair.ofEnv (effEnv st env0)) (.ok (.ok p)) h → st.plugin = some q →
      CoreOpen rt a st .killed h

theorem coreOpen_runs {rt a st o h} (hr : Runs (Core.open rt a st) o h) : CoreOpen rt a st o h := by
  unfold Core.open at hr
  -- the environment
  have hEnv : ∀ {o h}, Runs (M.catchUnwind (makeEnv rt a)) o h →
      (IoEnv.new rt a = none ∧ o = .ok none ∧ h = []) ∨
      (∃ e, IoEnv.new rt a = some (.error e) ∧ Prints h ∧
        (o = .ok none ∨ o = .ok (some (.error (-1))) ∨ o = .killed)) ∨
      (∃ env0, IoEnv.new rt a = some (.ok env0) ∧ o = .ok (some (.ok env0)) ∧ h = []) := by
    intro o h hc
    have key : ∀ {o h}, Runs (makeEnv rt a) o h →
      (IoEnv.new rt a = none ∧ o = .panic ∧ h = []) ∨
      (∃ e, IoEnv.new rt a = some (.error e) ∧ Prints h ∧
        (o = .panic ∨ o = .ok (.error (-1)) ∨ o = .killed)) ∨
      (∃ env0, IoEnv.new rt a = some (.ok env0) ∧ o = .ok (.ok env0) ∧ h = []) := by
      intro o h hm
      unfold makeEnv at hm
      inv Runs.ofOption_bind hm with ⟨h1, rfl, rfl⟩ | ⟨x, h1, hm⟩
      · exact Or.inl ⟨h1, rfl, rfl⟩
      · rcases x with e | env0
        · refine Or.inr (Or.inl ⟨e, h1, ?_⟩)
          inv Runs.bind hm with ⟨b, h2, h3, hw, hm, rfl⟩ | ⟨rfl, hw⟩ | ⟨rfl, hw⟩
          · obtain ⟨rfl, rfl⟩ := hm.pure
            rw [List.append_nil]
            exact ⟨(writeError_prints _ _ _).of_runs hw, Or.inr (Or.inl rfl)⟩
          · exact ⟨(writeError_prints _ _ _).of_runs hw, Or.inl rfl⟩
          · exact ⟨(writeError_prints _ _ _).of_runs hw, Or.inr (Or.inr rfl)⟩
        · obtain ⟨rfl, rfl⟩ := hm.pure
          exact Or.inr (Or.inr ⟨env0, h1, rfl, rfl⟩)
    inv Runs.catchUnwind hc with ⟨x, rfl, hm⟩ | ⟨rfl, hm⟩ | ⟨rfl, hm⟩
    · rcases key hm with ⟨_, h1, _⟩ | ⟨e, h1, h2, h3 | h3 | h3⟩ | ⟨env0, h1, h2, h3⟩
      · simp at h1
      · simp at h3
      · simp only [Out.ok.injEq] at h3; subst h3
        exact Or.inr (Or.inl ⟨e, h1, h2, Or.inr (Or.inl rfl)⟩)
      · simp at h3
      · simp only [Out.ok.injEq] at h2; subst h2
        exact Or.inr (Or.inr ⟨env0, h1, rfl, h3⟩)
    · rcases key hm with ⟨h1, _, h2⟩ | ⟨e, h1, h2, _⟩ | ⟨env0, h1, h2, h3⟩
      · exact Or.inl ⟨h1, rfl, h2⟩
      · exact Or.inr (Or.inl ⟨e, h1, h2, Or.inl rfl⟩)
      · simp at h2
    · rcases key hm with ⟨_, h1, _⟩ | ⟨e, h1, h2, _⟩ | ⟨env0, h1, h2, h3⟩
      · simp at h1
      · exact Or.inr (Or.inl ⟨e, h1, h2, Or.inr (Or.inr rfl)⟩)
      · simp at h2
  -- the plugin
  have hPlug : ∀ {env : IoEnv} {o h}, Runs (M.catchUnwind (makePlugin rt a.hasPrintf env)) o h →
      (env.commandInfo.command = [] ∧ o = .ok (some (.error 1)) ∧ h = []) ∨
      (env.commandInfo.command ≠ [] ∧
        ((∃ p, PairOpen rt (Pair.ofEnv env) (.ok (.ok p)) h ∧ o = .ok (some (.ok p))) ∨
         (∃ e h1 h2, PairOpen rt (Pair.ofEnv env) (.ok (.error e)) h1 ∧ Prints h2 ∧ h = h1 ++ h2 ∧
            (o = .ok none ∨ o = .ok (some (.error (-1))) ∨ o = .killed)) ∨
         (PairOpen rt (Pair.ofEnv env) .panic h ∧ o = .ok none) ∨
         (PairOpen rt (Pair.ofEnv env) .killed h ∧ o = .killed))) := by
    intro env o h hc
    have key : ∀ {o h}, Runs (makePlugin rt a.hasPrintf env) o h →
      (env.commandInfo.command = [] ∧ o = .ok (.error 1) ∧ h = []) ∨
      (env.commandInfo.command ≠ [] ∧
        ((∃ p, PairOpen rt (Pair.ofEnv env) (.ok (.ok p)) h ∧ o = .ok (.ok p)) ∨
         (∃ e h1 h2, PairOpen rt (Pair.ofEnv env) (.ok (.error e)) h1 ∧ Prints h2 ∧ h = h1 ++ h2 ∧
            (o = .panic ∨ o = .ok (.error (-1)) ∨ o = .killed)) ∨
         (PairOpen rt (Pair.ofEnv env) .panic h ∧ o = .panic) ∨
         (PairOpen rt (Pair.ofEnv env) .killed h ∧ o = .killed))) := by
      intro o h hm
      unfold makePlugin at hm
      split at hm
      · rename_i hn
        obtain ⟨rfl, rfl⟩ := hm.pure
        exact Or.inl ⟨(path_eq_nil _).1 hn, rfl, rfl⟩
      · rename_i hn
        refine Or.inr ⟨fun h => hn ((path_eq_nil _).2 h), ?_⟩
        inv Runs.bind hm with ⟨x, h1, h2, hp, hm, rfl⟩ | ⟨rfl, hp⟩ | ⟨rfl, hp⟩
        · have hp := pairOpen_runs hp
          rcases x with e | p
          · refine Or.inr (Or.inl ⟨e, h1, h2, hp, ?_⟩)
            inv Runs.bind hm with ⟨b, h3, h4, hw, hm, rfl⟩ | ⟨rfl, hw⟩ | ⟨rfl, hw⟩
            · obtain ⟨rfl, rfl⟩ := hm.pure
              rw [List.append_nil]
              exact ⟨(writeError_prints _ _ _).of_runs hw, rfl, Or.inr (Or.inl rfl)⟩
            · exact ⟨(writeError_prints _ _ _).of_runs hw, rfl, Or.inl rfl⟩
            · exact ⟨(writeError_prints _ _ _).of_runs hw, rfl, Or.inr (Or.inr rfl)⟩
          · obtain ⟨rfl, rfl⟩ := hm.pure
            rw [List.append_nil]
            exact Or.inl ⟨p, hp, rfl⟩
        · exact Or.inr (Or.inr (Or.inl ⟨pairOpen_runs hp, rfl⟩))
        · exact Or.inr (Or.inr (Or.inr ⟨pairOpen_runs hp, rfl⟩))
    inv Runs.catchUnwind hc with ⟨x, rfl, hm⟩ | ⟨rfl, hm⟩ | ⟨rfl, hm⟩
    · rcases key hm with ⟨h1, h2, h3⟩ | ⟨hne, ⟨p, h1, h2⟩ | ⟨e, h1, h2, h3, h4, h5, h6⟩ | ⟨_, h2⟩ | ⟨_, h2⟩⟩
      · simp only [Out.ok.injEq] at h2; subst h2; exact Or.inl ⟨h1, rfl, h3⟩
      · simp only [Out.ok.injEq] at h2; subst h2; exact Or.inr ⟨hne, Or.inl ⟨p, h1, rfl⟩⟩
      · refine Or.inr ⟨hne, Or.inr (Or.inl ⟨e, h1, h2, h3, h4, h5, ?_⟩)⟩
        rcases h6 with h6 | h6 | h6
        · simp at h6
        · simp only [Out.ok.injEq] at h6; subst h6; exact Or.inr (Or.inl rfl)
        · simp at h6
      · simp at h2
      · simp at h2
    · rcases key hm with ⟨h1, h2, h3⟩ | ⟨hne, ⟨p, h1, h2⟩ | ⟨e, h1, h2, h3, h4, h5, h6⟩ | ⟨h1, _⟩ | ⟨_, h2⟩⟩
      · simp at h2
      · simp at h2
      · exact Or.inr ⟨hne, Or.inr (Or.inl ⟨e, h1, h2, h3, h4, h5, Or.inl rfl⟩)⟩
      · exact Or.inr ⟨hne, Or.inr (Or.inr (Or.inl ⟨h1, rfl⟩))⟩
      · simp at h2
    · rcases key hm with ⟨h1, h2, h3⟩ | ⟨hne, ⟨p, h1, h2⟩ | ⟨e, h1, h2, h3, h4, h5, h6⟩ | ⟨_, h2⟩ | ⟨h1, _⟩⟩
      · simp at h2
      · simp at h2
      · exact Or.inr ⟨hne, Or.inr (Or.inl ⟨e, h1, h2, h3, h4, h5, Or.inr (Or.inr rfl)⟩)⟩
      · simp at h2
      · exact Or.inr ⟨hne, Or.inr (Or.inr (Or.inr ⟨h1, rfl⟩))⟩
  inv Runs.bind hr with ⟨x, h1, h2, he, hr, rfl⟩ | ⟨rfl, he⟩ | ⟨rfl, he⟩
  · rcases hEnv he with ⟨h3, h4, rfl⟩ | ⟨e, h3, hq, h4 | h4 | h4⟩ | ⟨env0, h3, h4, rfl⟩
    · simp only [Out.ok.injEq] at h4; subst h4
      obtain ⟨rfl, rfl⟩ := hr.pure; exact .envPanic h3
    · simp only [Out.ok.injEq] at h4; subst h4
      obtain ⟨rfl, rfl⟩ := hr.pure; rw [List.append_nil]; exact .envErr h3 hq
    · simp only [Out.ok.injEq] at h4; subst h4
      obtain ⟨rfl, rfl⟩ := hr.pure; rw [List.append_nil]; exact .envErr h3 hq
    · simp at h4
    · simp only [Out.ok.injEq] at h4; subst h4
      simp only [List.nil_append]
      simp only at hr
      inv Runs.bind hr with ⟨y, h5, h6, hp, hr, rfl⟩ | ⟨rfl, hp⟩ | ⟨rfl, hp⟩
      · rcases hPlug hp with ⟨h7, h8, rfl⟩ |
          ⟨hne, ⟨p, h7, h8⟩ | ⟨e, h9, h10, h11, hq, rfl, h8⟩ | ⟨h7, h8⟩ | ⟨_, h8⟩⟩
        · simp only [Out.ok.injEq] at h8; subst h8
          obtain ⟨rfl, rfl⟩ := hr.pure; exact .empty h3 h7
        · simp only [Out.ok.injEq] at h8; subst h8
          simp only at hr
          cases hpl : st.plugin with
          | none =>
            rw [hpl] at hr
            obtain ⟨rfl, rfl⟩ := hr.pure; rw [List.append_nil]; exact .accepted h3 hne h7 hpl
          | some q =>
            rw [hpl] at hr
            simp only at hr
            inv Runs.bind hr with ⟨z, h9, h10, hd, hr, rfl⟩ | ⟨rfl, hd⟩ | ⟨rfl, hd⟩
            · obtain ⟨rfl, rfl⟩ := hr.pure
              rw [List.append_nil]
              have := CoreOpen.again h3 hne h7 hpl hd
              rw [show withEnv st env0 = ⟨some (st.env.getD env0), some q⟩ by simp [withEnv, effEnv, hpl]] at this
              exact this
            · rcases drop_runs hd with ⟨h, _⟩ | ⟨_, h, _⟩ | ⟨_, _, _, h, _⟩ <;> simp at h
            · rcases drop_runs hd with ⟨_, rfl⟩ | ⟨_, h, _⟩ | ⟨_, _, _, h, _⟩
              · rw [List.append_nil]; exact .againKilled h3 hne h7 hpl
              · simp at h
              · simp at h
        · rcases h8 with h8 | h8 | h8
          · simp only [Out.ok.injEq] at h8; subst h8
            obtain ⟨rfl, rfl⟩ := hr.pure
            rw [List.append_nil]; exact .refused h3 hne h11 hq
          · simp only [Out.ok.injEq] at h8; subst h8
            obtain ⟨rfl, rfl⟩ := hr.pure
            rw [List.append_nil]; exact .refused h3 hne h11 hq
          · simp at h8
        · simp only [Out.ok.injEq] at h8; subst h8
          obtain ⟨rfl, rfl⟩ := hr.pure
          rw [List.append_nil]; exact .panic h3 hne h7
        · simp at h8
      · rcases hPlug hp with ⟨h7, h8, _⟩ |
          ⟨hne, ⟨p, h7, h8⟩ | ⟨e, h9, h10, h11, hq, h12, h8 | h8 | h8⟩ | ⟨h7, h8⟩ | ⟨_, h8⟩⟩ <;> simp at h8
      · rcases hPlug hp with ⟨h7, h8, _⟩ |
          ⟨hne, ⟨p, h7, h8⟩ | ⟨e, h9, h10, h11, hq, rfl, h8⟩ | ⟨h7, h8⟩ | ⟨h7, h8⟩⟩
        · simp at h8
        · simp at h8
        · exact .refusedKilled h3 hne h11 hq
        · simp at h8
        · exact .killed h3 hne h7
  · rcases hEnv he with ⟨_, h, _⟩ | ⟨_, _, _, h | h | h⟩ | ⟨_, _, h, _⟩ <;> simp at h
  · rcases hEnv he with ⟨_, h, _⟩ | ⟨e, h3, hq, _⟩ | ⟨_, _, h, _⟩
    · simp at h
    · exact .envKilled h3 hq
    · simp at h

end SudoPair
