import Verif.Spec.Session
import Verif.Props.Path
import Verif.Lemmas.Samples
/-
C04, C06, C39, C46, C50, C51: the exemption decision.
-/
namespace SudoPair
open Spec

theorem disjoint_false {xs ys : List Nat} :
    Pair.disjoint xs ys = false ↔ ∃ g ∈ xs, g ∈ ys := by
  unfold Pair.disjoint
  rw [← Bool.not_eq_true, List.all_eq_true]
  simp

theorem setEq_true {xs ys : List Nat} : Pair.setEq xs ys = true ↔ ∀ g, g ∈ xs ↔ g ∈ ys := by
  unfold Pair.setEq
  rw [Bool.and_eq_true, List.all_eq_true, List.all_eq_true]
  simp only [List.contains_iff_mem]
  exact ⟨fun h g => ⟨h.1 g, h.2 g⟩, fun h => ⟨fun g => (h g).1, fun g => (h g).2⟩⟩

/-! ### C39 -/

/-- C39: whenever `runas_gids` returns (always, in a release build), it is the set of groups the
command runs with. -/
theorem C39_runas_gids (debug : Bool) (env : IoEnv) (gs : List Nat)
    (h : env.runasGids debug = some gs) (g : Nat) : g ∈ gs ↔ RunsWith env g := by
  unfold IoEnv.runasGids at h
  split at h
  · simp at h
  · simp only [Option.some.injEq] at h
    subst h
    unfold RunsWith
    cases env.commandInfo.runasGroups <;> simp

/-- C39: it always returns in a release build; a debug build panics exactly if not exactly one of
`preserve_groups` and `runas_groups` is given. -/
theorem C39_total (debug : Bool) (env : IoEnv) :
    env.runasGids debug = none ↔
      debug = true ∧ ¬ (env.commandInfo.preserveGroups = true ↔ env.commandInfo.runasGroups = none) := by
  unfold IoEnv.runasGids
  cases debug <;> cases env.commandInfo.preserveGroups <;> cases env.commandInfo.runasGroups <;> simp

/-- Non-vacuity for C39: both the listed and the preserved case. -/
example : sampleEnv.runasGids true = some [0, 0] ∧
    IoEnv.runasGids true { sampleEnv with
      commandInfo := { sampleCommandInfo with
        runasGroups := none
        preserveGroups := true } } = some [0, 1000, 27] := by decide

/-! ### C04 -/

theorem fromRoot_iff (p : Pair) : p.fromRoot = true ↔ p.env.userInfo.uid = p.env.userInfo.euid := by
  simp [Pair.fromRoot]

theorem themselves_iff (p : Pair) : (!p.toUser && !p.toGroup) = true ↔ Themselves p.env := by
  simp only [Pair.toUser, Pair.toGroup, Themselves, Bool.and_eq_true, Bool.not_eq_true',
    decide_eq_false_iff_not, ne_eq, Decidable.not_not]
  exact ⟨fun h => ⟨h.1.symm, h.2.symm⟩, fun h => ⟨h.1.symm, h.2.symm⟩⟩

theorem unlogged_iff (p : Pair) : p.exemptedFromLogging = true ↔ Unlogged p.env := by
  simp [Pair.exemptedFromLogging, Unlogged, and_assoc]

theorem fromExemptedGid_iff (p : Pair) :
    p.fromExemptedGid = true ↔ ∃ g ∈ p.options.gidsExempted, g ∈ p.env.userInfo.groups := by
  unfold Pair.fromExemptedGid
  rw [Bool.not_eq_true', disjoint_false]

theorem toEnforcedGid_iff {debug : Bool} {p : Pair} {b : Bool} (h : p.toEnforcedGid debug = some b) :
    b = true ↔ ∃ g ∈ p.options.gidsEnforced, RunsWith p.env g := by
  unfold Pair.toEnforcedGid at h
  split at h
  · simp at h
  · rename_i gids hg
    simp only [Option.some.injEq] at h
    subst h
    rw [Bool.not_eq_true', disjoint_false]
    simp only [C39_runas_gids debug p.env gids hg]

/-- C04: in any build, whenever the decision is reached, it is the documented rule. -/
theorem C04_rule (debug : Bool) (p : Pair) (b : Bool) (h : p.isExempt debug = some b) :
    b = true ↔ Exempt p.env p.options := by
  unfold Pair.isExempt at h
  unfold Exempt
  rw [← themselves_iff, ← unlogged_iff, ← fromRoot_iff, ← fromExemptedGid_iff, ← C47_same_path]
  split at h
  · rename_i h1
    simp only [Option.some.injEq] at h; subst h; simp [h1]
  · rename_i h1
    split at h
    · simp at h
    · rename_i h2
      simp only [Option.some.injEq] at h; subst h
      have : (!p.toUser && !p.toGroup) = true := by
        unfold Pair.toThemselves at h2
        split at h2
        · assumption
        · simp at h2
      simp [this]
    · rename_i h2
      have hself : ¬ (!p.toUser && !p.toGroup) = true := by
        unfold Pair.toThemselves at h2
        split at h2
        · split at h2
          · split at h2
            · simp at h2
            · split at h2 <;> simp at h2
          · simp at h2
        · assumption
      simp only [h1, hself]
      split at h
      · rename_i h3
        simp only [Option.some.injEq] at h; subst h; simp [h3]
      · rename_i h3
        split at h
        · rename_i h4
          simp only [Option.some.injEq] at h; subst h; simp [h4]
        · rename_i h4
          split at h
          · rename_i h5
            simp only [Option.some.injEq] at h; subst h; simp [h5]
          · rename_i h5
            have key : ∀ c, p.toEnforcedGid debug = some c →
                (c = false ↔ ∀ g ∈ p.options.gidsEnforced, ¬ RunsWith p.env g) := by
              intro c hc
              have := toEnforcedGid_iff hc
              cases c <;> simp at this ⊢ <;> exact this
            split at h
            · simp at h
            · rename_i h6
              simp only [Option.some.injEq] at h; subst h
              have := (key false h6).1 rfl
              simp only [h3, h4, h5, true_iff]
              exact Or.inr (Or.inr (Or.inr (Or.inr (Or.inr this))))
            · rename_i h6
              simp only [Option.some.injEq] at h; subst h
              have := key true h6
              simp only [Bool.true_eq_false, false_iff] at this
              simp [h3, h4, h5]
              simpa using this

/-- C04: a release build always decides. -/
theorem C04_total (p : Pair) : ∃ b, p.isExempt false = some b := by
  unfold Pair.isExempt Pair.toThemselves Pair.toEnforcedGid IoEnv.runasGids
  simp only [Bool.false_and, Bool.false_eq_true, if_false]
  split
  · exact ⟨_, rfl⟩
  · split
    · rename_i h; split at h <;> simp at h
    · exact ⟨_, rfl⟩
    · split
      · exact ⟨_, rfl⟩
      · split
        · exact ⟨_, rfl⟩
        · split
          · exact ⟨_, rfl⟩
          · split
            · rename_i h; simp at h
            · exact ⟨_, rfl⟩
            · exact ⟨_, rfl⟩

/-- C04, release build: exempt iff the documented rule says so. -/
theorem C04_release (p : Pair) : p.isExempt false = some true ↔ Exempt p.env p.options := by
  obtain ⟨b, hb⟩ := C04_total p
  have := C04_rule false p b hb
  rw [hb, Option.some.injEq]
  exact this

/-- A pair for the sample session and given options. -/
def samplePair : Pair := ⟨sampleEnv, .ofMap sampleEnv.pluginOptions, none⟩

/-- Non-vacuity for C04: neither side is trivial, and each of the six reasons applies to some
session on its own. -/
example : samplePair.isExempt false = some false ∧ samplePair.isExempt true = some false ∧
    Pair.isExempt true { samplePair with options := { samplePair.options with gidsExempted := [27] } }
      = some true ∧
    Pair.isExempt true { samplePair with options := { samplePair.options with gidsEnforced := [5] } }
      = some true ∧
    Pair.isExempt true { samplePair with options := { samplePair.options with
      binaryPath := b! "/bin//ls" } } = some true ∧
    Pair.isExempt true { samplePair with env := { sampleEnv with userInfo :=
      { sampleUserInfo with uid := 0 } } } = some true := by decide

/-- When the decision is not reached (a debug assertion failed). -/
theorem isExempt_none (debug : Bool) (p : Pair) :
    p.isExempt debug = none ↔ p.fromRoot = false ∧ (p.toThemselves debug = none ∨
      (p.toThemselves debug = some false ∧ p.approvalCommand = false ∧ p.exemptedFromLogging = false ∧
        p.fromExemptedGid = false ∧ p.env.runasGids debug = none)) := by
  have he : p.toEnforcedGid debug = none ↔ p.env.runasGids debug = none := by
    unfold Pair.toEnforcedGid
    split <;> simp [*]
  rw [← he]
  unfold Pair.isExempt
  cases p.fromRoot <;> rcases p.toThemselves debug with _ | (_ | _) <;> cases p.approvalCommand <;>
    cases p.exemptedFromLogging <;> cases p.fromExemptedGid <;>
    rcases p.toEnforcedGid debug with _ | (_ | _) <;> simp

/-! ### C06 -/

/-- C06: enforcing more gids never makes a session exempt. -/
theorem C06_enforced_mono (debug : Bool) (p : Pair) (l' : List Nat)
    (hsub : ∀ g ∈ p.options.gidsEnforced, g ∈ l') :
    p.isExempt debug = some false →
    Pair.isExempt debug { p with options := { p.options with gidsEnforced := l' } } = some false := by
  intro h
  have h1 := C04_rule debug p false h
  have hd : ∀ b, Pair.isExempt debug
      { p with options := { p.options with gidsEnforced := l' } } = some b → b = false := by
    intro b hb
    have h2 := C04_rule debug _ b hb
    cases b
    · rfl
    · exfalso
      simp only [true_iff] at h2
      apply absurd h1; rw [Bool.false_eq_true, false_iff, Classical.not_not]
      rcases h2 with h | h | h | h | h | h
      · exact Or.inl h
      · exact Or.inr (Or.inl h)
      · exact Or.inr (Or.inr (Or.inl h))
      · exact Or.inr (Or.inr (Or.inr (Or.inl h)))
      · exact Or.inr (Or.inr (Or.inr (Or.inr (Or.inl h))))
      · exact Or.inr (Or.inr (Or.inr (Or.inr (Or.inr (fun g hg => h g (hsub g hg))))))
  cases hx : Pair.isExempt debug { p with options := { p.options with gidsEnforced := l' } } with
  | some b => rw [hd b hx]
  | none =>
    -- the assertions do not depend on the option
    exfalso
    rw [isExempt_none] at hx
    have : p.isExempt debug = none := (isExempt_none debug p).2 hx
    rw [this] at h
    simp at h

/-- C06: exempting more gids never makes an exempt session require a pair. -/
theorem C06_exempted_mono (debug : Bool) (p : Pair) (l' : List Nat)
    (hsub : ∀ g ∈ p.options.gidsExempted, g ∈ l') :
    p.isExempt debug = some true →
    Pair.isExempt debug { p with options := { p.options with gidsExempted := l' } } = some true := by
  intro h
  have h1 := (C04_rule debug p true h).1 rfl
  have hE : Exempt p.env { p.options with gidsExempted := l' } := by
    rcases h1 with h | h | h | h | ⟨g, hg, h⟩ | h
    · exact Or.inl h
    · exact Or.inr (Or.inl h)
    · exact Or.inr (Or.inr (Or.inl h))
    · exact Or.inr (Or.inr (Or.inr (Or.inl h)))
    · exact Or.inr (Or.inr (Or.inr (Or.inr (Or.inl ⟨g, hsub g hg, h⟩))))
    · exact Or.inr (Or.inr (Or.inr (Or.inr (Or.inr h))))
  cases hx : Pair.isExempt debug { p with options := { p.options with gidsExempted := l' } } with
  | some b => rw [(C04_rule debug _ b hx).2 hE]
  | none =>
    exfalso
    have hsub' : p.fromExemptedGid = true →
        Pair.fromExemptedGid { p with options := { p.options with gidsExempted := l' } } = true := by
      rw [fromExemptedGid_iff, fromExemptedGid_iff]
      rintro ⟨g, hg, hg'⟩
      exact ⟨g, hsub g hg, hg'⟩
    rw [isExempt_none] at hx
    have : p.isExempt debug = none := by
      rw [isExempt_none]
      refine ⟨hx.1, hx.2.imp id ?_⟩
      rintro ⟨h1, h2, h3, h4, h5⟩
      refine ⟨h1, h2, h3, ?_, h5⟩
      cases hf : p.fromExemptedGid with
      | false => rfl
      | true => rw [hsub' hf] at h4; simp at h4
    rw [this] at h
    simp at h

/-! ### C46 -/

/-- C46: for a session that needs a pair, `socket_mode` is undefined exactly if only the group changes
and it does so without `-g`. -/
theorem C46_undefined_iff (p : Pair) (h : ¬ Exempt p.env p.options) :
    p.socketMode = none ↔
      p.env.commandInfo.runasEuid = p.env.userInfo.uid ∧
      p.env.commandInfo.runasEgid ≠ p.env.userInfo.gid ∧ p.env.settings.runasGroup = none := by
  have hself : ¬ Themselves p.env := fun hs => h (Or.inr (Or.inl hs))
  unfold Themselves at hself
  unfold Pair.socketMode Pair.toUser Pair.toExplicitGroup
  by_cases h1 : p.env.userInfo.uid = p.env.commandInfo.runasEuid
  · cases h2 : p.env.settings.runasGroup with
    | none =>
      simp [h1]
      intro h3; exact hself ⟨h1.symm, h3⟩
    | some g => simp [h1]
  · have h1' : ¬ p.env.commandInfo.runasEuid = p.env.userInfo.uid := fun h => h1 h.symm
    simp [h1, h1']

/-- C46 (partial): the mode is defined, and is the user or the group write bit according to what the
user asked for, if a change of group alone only happens through `-g`.  The full statement (without
this hypothesis) is false: `C46_counterexample`. -/
theorem C46_defined_partial (p : Pair) (h : ¬ Exempt p.env p.options)
    (hg : p.env.commandInfo.runasEuid = p.env.userInfo.uid →
      p.env.commandInfo.runasEgid ≠ p.env.userInfo.gid → p.env.settings.runasGroup ≠ none) :
    (p.env.commandInfo.runasEuid ≠ p.env.userInfo.uid ∧ p.socketMode = some 0o200) ∨
    (p.env.commandInfo.runasEuid = p.env.userInfo.uid ∧ p.env.settings.runasGroup ≠ none ∧
      p.socketMode = some 0o020) := by
  have hu := C46_undefined_iff p h
  by_cases h1 : p.env.commandInfo.runasEuid = p.env.userInfo.uid
  · have hne : p.env.commandInfo.runasEgid ≠ p.env.userInfo.gid :=
      fun h2 => h (Or.inr (Or.inl ⟨h1, h2⟩))
    have h3 := hg h1 hne
    right
    refine ⟨h1, h3, ?_⟩
    unfold Pair.socketMode Pair.toUser Pair.toExplicitGroup
    cases h4 : p.env.settings.runasGroup with
    | none => exact absurd h4 h3
    | some g => simp [h1, Socket.S_IWGRP]
  · left
    refine ⟨h1, ?_⟩
    have h1' : p.env.userInfo.uid ≠ p.env.commandInfo.runasEuid := fun h => h1 h.symm
    unfold Pair.socketMode Pair.toUser
    simp [h1', Socket.S_IWUSR]

/-- C46 is false as stated: the user sudoes to themselves but the policy changes the primary group
(e.g. via a `runas_gid` set by the policy), no `-g` given: `unreachable!` is reached. -/
theorem C46_counterexample : ∃ p : Pair, ¬ Exempt p.env p.options ∧
    (p.env.userInfo.uid = p.env.commandInfo.runasEuid ∨ p.env.settings.runasGroup = none) ∧ p.socketMode = none := by
  refine ⟨{ samplePair with env := { sampleEnv with commandInfo := { sampleCommandInfo with
    runasEuid := 1000 } } }, ?_, by decide, by decide⟩
  rw [← C04_release]
  decide

/-- Non-vacuity of `C46_defined_partial`: both cases. -/
example : (¬ Exempt samplePair.env samplePair.options) ∧ samplePair.socketMode = some 0o200 ∧
    (let p := { samplePair with env := { sampleEnv with
        commandInfo := { sampleCommandInfo with runasEuid := 1000 }
        settings := { sampleSettings with runasGroup := some (b! "root") } } }
     ¬ Exempt p.env p.options ∧ p.socketMode = some 0o020) := by
  refine ⟨?_, by decide, ?_, by decide⟩
  · rw [show samplePair.env = samplePair.env from rfl, ← C04_release]; decide
  · rw [← C04_release]; decide

/-! ### C50 -/

/-- C50: a debug build either panics (and then refuses, C08) or decides like the release build. -/
theorem C50_alike (p : Pair) : p.isExempt true = none ∨ p.isExempt true = p.isExempt false := by
  cases h : p.isExempt true with
  | none => exact Or.inl rfl
  | some b =>
    right
    obtain ⟨b', hb'⟩ := C04_total p
    have h1 := C04_rule true p b h
    have h2 := C04_rule false p b' hb'
    rw [hb']
    congr 1
    cases b <;> cases b' <;> simp at h1 h2 ⊢
    · exact h1 h2
    · exact h2 h1

/-- C50: when exactly the debug build does not decide. -/
theorem C50_trips (p : Pair) : p.isExempt true = none ↔ Trips p.env p.options := by
  rw [isExempt_none, C39_total]
  have h1 : p.fromRoot = false ↔ p.env.userInfo.uid ≠ p.env.userInfo.euid := by simp [Pair.fromRoot]
  have h2 : p.toThemselves true = none ↔ Themselves p.env ∧
      ¬ (OneGroupSource p.env ∧ ∀ g, RunsWith p.env g ↔ g ∈ p.env.userInfo.groups) := by
    unfold Pair.toThemselves
    by_cases ht : (!p.toUser && !p.toGroup) = true
    · rw [if_pos ht]
      have ht' := (themselves_iff p).1 ht
      cases hr : p.env.runasGids true with
      | none =>
        have := ((C39_total true p.env).1 hr).2
        simp only [if_true, ht', true_and, true_iff]
        exact fun h => this h.1
      | some gs =>
        have ho : OneGroupSource p.env := by
          have := mt (C39_total true p.env).2 (by rw [hr]; simp)
          simpa [OneGroupSource] using this
        have hs : Pair.setEq gs p.env.userInfo.groups = true ↔ ∀ g, RunsWith p.env g ↔ g ∈ p.env.userInfo.groups := by
          rw [setEq_true]
          exact forall_congr' fun g => by rw [C39_runas_gids true p.env gs hr]
        by_cases hse : Pair.setEq gs p.env.userInfo.groups = true
        · simp [hse, ht', ho, hs.1 hse]
        · simp only [if_true, hse, ht', ho, true_and]
          simp only [Bool.false_eq_true, if_false, true_iff]
          exact fun h => hse (hs.2 h)
    · rw [if_neg ht]
      simp [mt (themselves_iff p).2 ht]
  have h3 : p.toThemselves true = some false ↔ ¬ Themselves p.env := by
    rw [← themselves_iff]
    unfold Pair.toThemselves
    cases (!p.toUser && !p.toGroup)
    · simp
    · cases p.env.runasGids true <;> simp
  have h4 : p.approvalCommand = false ↔ ¬ SamePath p.env.commandInfo.command p.options.binaryPath := by
    rw [← Bool.not_eq_true]
    exact not_congr (C47_same_path p)
  have h5 : p.exemptedFromLogging = false ↔ ¬ Unlogged p.env := by
    rw [← Bool.not_eq_true, unlogged_iff]
  have h6 : p.fromExemptedGid = false ↔ ¬ ∃ g ∈ p.options.gidsExempted, g ∈ p.env.userInfo.groups := by
    rw [← Bool.not_eq_true, fromExemptedGid_iff]
  rw [h1, h2, h3, h4, h5, h6]
  simp only [Trips, OneGroupSource, true_and]

theorem isExempt_trips {d : Bool} {p : Pair} (hd : d = true) (h : Trips p.env p.options) : p.isExempt d = none := by
  subst hd; exact (C50_trips p).2 h

theorem isExempt_decides {d : Bool} {p : Pair} (h : ¬ (d = true ∧ Trips p.env p.options)) :
    (Exempt p.env p.options → p.isExempt d = some true) ∧ (¬ Exempt p.env p.options → p.isExempt d = some false) := by
  have hne : p.isExempt d ≠ none := by
    intro hn
    cases d
    · obtain ⟨b, hb⟩ := C04_total p
      rw [hb] at hn; cases hn
    · exact h ⟨rfl, (C50_trips p).1 hn⟩
  cases hb : p.isExempt d with
  | none => exact absurd hb hne
  | some b =>
    have := C04_rule d p b hb
    cases b
    · exact ⟨fun hx => absurd (this.2 hx) (by simp), fun _ => rfl⟩
    · exact ⟨fun _ => rfl, fun hx => absurd (this.1 rfl) hx⟩

/-- C50: for environments obeying sudo's documented rules the builds decide alike. -/
theorem C50_consistent (p : Pair) (h : Consistent p.env) : p.isExempt true = p.isExempt false := by
  rcases C50_alike p with hn | he
  · exfalso
    obtain ⟨h1, h2⟩ := h
    have hg : ∃ gs, p.env.runasGids true = some gs := by
      cases hr : p.env.runasGids true with
      | none => exact absurd h1 ((C39_total true p.env).1 hr).2
      | some gs => exact ⟨gs, rfl⟩
    obtain ⟨gs, hgs⟩ := hg
    have hthem : p.toThemselves true ≠ none := by
      unfold Pair.toThemselves
      rw [hgs]
      split
      · rename_i ht
        have hs : Pair.setEq gs p.env.userInfo.groups = true := by
          rw [setEq_true]
          intro g
          rw [C39_runas_gids true p.env gs hgs]
          exact h2 ((themselves_iff p).1 ht) g
        simp [hs]
      · simp
    rw [isExempt_none, hgs] at hn
    rcases hn.2 with h | h
    · exact hthem h
    · simp at h
  · exact he

/-- Non-vacuity of `Consistent`, and of the disagreement: an inconsistent environment on which the
release build decides but the debug build panics. -/
example : Consistent sampleEnv ∧
    (∃ p : Pair, p.isExempt true = none ∧ p.isExempt false = some false) := by
  refine ⟨⟨by decide, ?_⟩, { samplePair with env := { sampleEnv with commandInfo := { sampleCommandInfo with
    preserveGroups := true } } }, by decide⟩
  intro h; exact absurd h.1 (by decide)

/-! ### C51 -/

/-- C51 (partial): a user who sudoes to themselves gets no new effective uid, and in a debug build also
no new group.  The full statement (release builds, and the real uid) is false:
`C51_counterexample`. -/
theorem C51_themselves_partial (p : Pair) (hself : Themselves p.env) (hne : p.env.userInfo.uid ≠ p.env.userInfo.euid)
    (h : p.isExempt true = some true) :
    p.env.commandInfo.runasEuid = p.env.userInfo.uid ∧
    ∀ g, RunsWith p.env g → g ∈ p.env.userInfo.groups := by
  refine ⟨hself.1, ?_⟩
  have ht := (themselves_iff p).2 hself
  unfold Pair.isExempt at h
  have h1 : p.fromRoot = false := by
    rw [Bool.eq_false_iff, ne_eq, fromRoot_iff]; exact hne
  rw [h1] at h
  unfold Pair.toThemselves at h
  simp only [ht, if_true, Bool.false_eq_true, if_false] at h
  cases hg : p.env.runasGids true with
  | none => rw [hg] at h; simp at h
  | some gs =>
    rw [hg] at h
    simp only at h
    by_cases hs : Pair.setEq gs p.env.userInfo.groups = true
    · intro g hr
      exact (setEq_true.1 hs g).1 ((C39_runas_gids true p.env gs hg g).2 hr)
    · simp [hs] at h

/-- C51 is false as stated: in a release build a session "to oneself" is exempt although the command
gets the enforced supplementary group 0 which the user does not have; and in any build it is exempt
although the command's real uid is 0. -/
theorem C51_counterexample :
    (∃ p : Pair, Themselves p.env ∧ p.isExempt false = some true ∧ RunsWith p.env 0 ∧
      0 ∉ p.env.userInfo.groups ∧ 0 ∈ p.options.gidsEnforced) ∧
    (∃ p : Pair, Themselves p.env ∧ p.isExempt true = some true ∧ p.isExempt false = some true ∧
      p.env.commandInfo.runasUid = 0 ∧ p.env.userInfo.uid ≠ 0) := by
  refine ⟨⟨{ samplePair with env := { sampleEnv with commandInfo := { sampleCommandInfo with
      runasEuid := 1000
      runasEgid := 1000
      runasGroups := some [1000, 0] } } }, by unfold Themselves; decide, by decide, ?_, by decide,
      by decide⟩,
    ⟨{ samplePair with env := { sampleEnv with commandInfo := { sampleCommandInfo with
      runasEuid := 1000
      runasEgid := 1000
      runasGroups := some [1000, 27] } } }, by unfold Themselves; decide, by decide, by decide,
      by decide, by decide⟩⟩
  exact Or.inr (Or.inl ⟨[1000, 0], rfl, by decide⟩)

/-- Non-vacuity of `C51_themselves_partial`. -/
example : ∃ p : Pair, Themselves p.env ∧ p.env.userInfo.uid ≠ p.env.userInfo.euid ∧
    p.isExempt true = some true :=
  ⟨{ samplePair with env := { sampleEnv with commandInfo := { sampleCommandInfo with
      runasEuid := 1000
      runasEgid := 1000
      runasGroups := some [1000, 27] } } }, by unfold Themselves; decide, by decide, by decide⟩

end SudoPair
