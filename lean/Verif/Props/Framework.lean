import Verif.Spec.Framework
import Verif.Lemmas.Lawful
import Verif.Lemmas.Exec
import Verif.Lemmas.Says
import Verif.Lemmas.Scenario
/-
The crate sudo_plugin for any plugin: C58.
-/
namespace SudoPair.Framework
open SudoPair

theorem stderr_sudoPair (rt : Rt) (b : Bool) : stderr (sudoPair rt) b = PrintFacility.stderr b := rfl

theorem makeEnv_sudoPair (rt : Rt) (a : OpenArgs) :
    Core.makeEnv rt a = (makeEnv (sudoPair rt) rt a >>= fun r => pure (r.mapError OpenStatus.toInt)) := by
  unfold Core.makeEnv makeEnv
  simp only [bind_assoc]
  congr 1; funext x
  cases x with
  | ok env => simp only [pure_bind]; rfl
  | error e => simp only [stderr_sudoPair, bind_assoc, pure_bind]; rfl

theorem makePlugin_sudoPair (rt : Rt) (b : Bool) (env : IoEnv) :
    Core.makePlugin rt b env =
      (makePlugin (sudoPair rt) b env >>= fun r => pure (r.mapError OpenStatus.toInt)) := by
  unfold Core.makePlugin makePlugin
  split
  · simp only [pure_bind]; rfl
  · simp only [bind_assoc, sudoPair]
    congr 1; funext x
    cases x with
    | ok p => simp only [pure_bind]; rfl
    | error e => simp only [bind_assoc, pure_bind]; rfl

theorem drop_sudoPair (p : Pair) : M.catchUnwind p.drop = (p.drop >>= fun _ => pure (some ())) := by
  unfold Pair.drop
  split
  · rfl
  · unfold Socket.close
    rename_i fd _
    funext s
    cases s <;> rfl

theorem close_sudoPair (p : Pair) : M.catchUnwind p.close = (p.close >>= fun _ => pure (some ())) := by
  unfold Pair.close
  split
  · rfl
  · unfold Socket.close
    rename_i fd _
    funext s
    rcases s with _ | ⟨x, _ | ⟨y, s⟩⟩ <;> rfl

theorem open_sudoPair (rt : Rt) (a : OpenArgs) (st : State) :
    «open» (sudoPair rt) rt a (slots st) =
      (Core.open rt a st >>= fun x => pure (x.1, slots x.2)) := by
  unfold «open» Core.open
  rw [makeEnv_sudoPair, M.catchUnwind_map]
  simp only [bind_assoc, pure_bind]
  congr 1; funext x
  rcases x with _ | (status | env)
  · rfl
  · rfl
  · simp only [Option.map_some, Except.mapError, slots]
    rw [makePlugin_sudoPair, M.catchUnwind_map]
    simp only [bind_assoc, pure_bind]
    congr 1; funext y
    rcases y with _ | (status | p)
    · rfl
    · rfl
    · simp only [Option.map_some]
      cases hp : st.plugin with
      | none => rfl
      | some q =>
        show M.catchUnwind p.drop >>= _ = _
        simp only [drop_sudoPair, bind_assoc, pure_bind, Except.mapError]
        rfl

theorem finish_sudoPair (rt : Rt) (env : IoEnv) (r : Except ErrorKind Unit) :
    Core.finish env r =
      (finish (sudoPair rt) env (r.mapError Sum.inr) >>= fun s => pure s.toInt) := by
  cases r with
  | ok u => rfl
  | error e => simp only [Core.finish, finish, Except.mapError, bind_assoc, pure_bind]; rfl

theorem log_sudoPair (rt : Rt) (f : Facility) (buf : Bytes) (st : State) :
    log (sudoPair rt) f buf (slots st) = Core.log rt f buf st := by
  have key : ∀ (env : IoEnv) (p : Pair),
      (if (!Core.hint env.commandInfo f) = true then pure Core.LOG_OK
        else Core.handler rt p buf f >>= fun r => Core.finish env r) =
      ((if (!Core.hint env.commandInfo f && !(sudoPair rt).ignoreHints) = true then pure LogStatus.ok
        else (sudoPair rt).log f p buf >>= fun r => finish (sudoPair rt) env r) >>=
        fun s => pure s.toInt) := by
    intro env p
    cases Core.hint env.commandInfo f with
    | false => rfl
    | true =>
      simp only [Bool.not_true, Bool.false_eq_true, if_false, Bool.false_and]
      show _ = ((Core.handler rt p buf f >>= _) >>= _) >>= _
      simp only [bind_assoc]
      congr 1; funext r
      rw [finish_sudoPair rt]
      cases r <;> simp only [pure_bind] <;> rfl
  unfold log Core.log
  simp only [slots, key]
  have : ∀ x : Option IoEnv, ∀ y : Option Pair, ∀ g : IoEnv → Pair → M LogStatus,
      M.catchUnwind (do let env ← M.ofOption x; let p ← M.ofOption y; g env p >>= fun s => pure s.toInt)
      = (M.catchUnwind (do let env ← M.ofOption x; let p ← M.ofOption y; g env p) >>=
          fun o => pure (o.map LogStatus.toInt)) := by
    intro x y g
    rw [← M.catchUnwind_map]
    simp only [bind_assoc]
  rw [this]
  simp only [bind_assoc, pure_bind]
  congr 1; funext o
  cases o <;> rfl

theorem winsize_sudoPair (rt : Rt) (l c : Nat) (st : State) :
    changeWinsize (sudoPair rt) l c (slots st) = Core.changeWinsize l c st := by
  have key : ∀ (env : IoEnv) (p : Pair),
      (p.changeWinsize l c >>= fun r => Core.finish env r) =
      (((sudoPair rt).winsize p l c >>= fun r => finish (sudoPair rt) env r) >>=
        fun s => pure s.toInt) := by
    intro env p
    show _ = ((p.changeWinsize l c >>= _) >>= _) >>= _
    simp only [bind_assoc]
    congr 1; funext r
    rw [finish_sudoPair rt]
    cases r <;> simp only [pure_bind] <;> rfl
  unfold changeWinsize Core.changeWinsize
  simp only [slots, key]
  have : ∀ x : Option IoEnv, ∀ y : Option Pair, ∀ g : IoEnv → Pair → M LogStatus,
      M.catchUnwind (do let env ← M.ofOption x; let p ← M.ofOption y; g env p >>= fun s => pure s.toInt)
      = (M.catchUnwind (do let env ← M.ofOption x; let p ← M.ofOption y; g env p) >>=
          fun o => pure (o.map LogStatus.toInt)) := by
    intro x y g
    rw [← M.catchUnwind_map]
    simp only [bind_assoc]
  rw [this]
  simp only [bind_assoc, pure_bind]
  congr 1; funext o
  cases o <;> rfl

/-- The callbacks of Model/Core are those of the generic crate for the plugin `SudoPair`. -/
theorem instance_step (rt : Rt) (c : Call) (st : State) :
    step (sudoPair rt) rt c (slots st) =
      (Core.step rt (call c) st >>= fun x => pure (x.1, slots x.2)) := by
  cases c with
  | «open» a => exact open_sudoPair rt a st
  | close x e =>
    simp only [step, call, Core.step, close, Core.close, slots, bind_assoc]
    cases hp : st.plugin with
    | none => simp only [pure_bind]
    | some p =>
      show (M.catchUnwind p.close >>= _) >>= _ = _
      simp only [close_sudoPair, bind_assoc, pure_bind]
  | showVersion v =>
    simp only [step, call, Core.step, showVersion, Core.showVersion, slots, bind_assoc]
    congr 1
  | log f buf =>
    simp only [step, call, Core.step, log_sudoPair, bind_assoc, pure_bind]
  | changeWinsize l cc =>
    simp only [step, call, Core.step, winsize_sudoPair, bind_assoc, pure_bind]

end SudoPair.Framework

namespace SudoPair
open Spec Framework

variable {σ ε : Type}

theorem openCode_eq (x : OpenStatus) : x.toInt = openCode x := by cases x <;> rfl

theorem logCode_eq (x : LogStatus) : x.toInt = logCode x := by cases x <;> rfl

theorem runs_sched {α : Type} {m : M α} {o : Out α} {h : Hist} (hr : Runs m o h) :
    ∃ s s', m s = (o, h, s') := by
  obtain ⟨s, rfl, rfl⟩ := hr; exact ⟨s, _, rfl⟩

theorem reported_runs {P : Plugin σ ε} {env : IoEnv} {m : M (Except ε Unit)} {o h}
    (hr : Runs (M.catchUnwind (m >>= fun r => finish P env r)) o h) :
    o = .killed ∨ ∃ x, o = .ok x ∧ Reported P env.hasPrintf m (x.getD coreLogStatus).toInt h := by
  have key : ∀ {o h}, Runs (m >>= fun r => finish P env r) o h →
      o = .killed ∨ (o = .panic ∧ Reported P env.hasPrintf m 0 h) ∨
        ∃ x, o = .ok x ∧ Reported P env.hasPrintf m x.toInt h := by
    intro o h hr
    inv Runs.bind hr with ⟨r, h1, h2, hm, hr, rfl⟩ | ⟨rfl, hm⟩ | ⟨rfl, hm⟩
    · obtain ⟨s, s', hm⟩ := runs_sched hm
      cases r with
      | ok u =>
        obtain ⟨rfl, rfl⟩ := hr.pure
        rw [List.append_nil]
        exact Or.inr (Or.inr ⟨_, rfl, .accepted hm⟩)
      | error e =>
        unfold finish at hr
        inv Runs.bind hr with ⟨b, h3, h4, hw, hr, rfl⟩ | ⟨rfl, hw⟩ | ⟨rfl, hw⟩
        · obtain ⟨rfl, rfl⟩ := hr.pure
          rw [List.append_nil]
          rcases writeError_complains (name := P.name) rfl rfl hw with k | ⟨k, _⟩ | ⟨_, _, k⟩
          · cases k
          · cases k
          · exact Or.inr (Or.inr ⟨_, rfl, by rw [logCode_eq]; exact .error hm k⟩)
        · rcases writeError_complains (name := P.name) rfl rfl hw with k | ⟨_, k⟩ | ⟨_, k, _⟩
          · cases k
          · exact Or.inr (Or.inl ⟨rfl, .errorPanicked hm k⟩)
          · cases k
        · exact Or.inl rfl
    · obtain ⟨s, s', hm⟩ := runs_sched hm
      exact Or.inr (Or.inl ⟨rfl, .panicked hm⟩)
    · exact Or.inl rfl
  inv Runs.catchUnwind hr with ⟨a, rfl, hm⟩ | ⟨rfl, hm⟩ | ⟨rfl, hm⟩
  · rcases key hm with h | ⟨h, _⟩ | ⟨x, h, hx⟩
    · cases h
    · cases h
    · cases h; exact Or.inr ⟨_, rfl, hx⟩
  · rcases key hm with h | ⟨h, hx⟩ | ⟨x, h, hx⟩
    · cases h
    · exact Or.inr ⟨_, rfl, hx⟩
    · cases h
  · exact Or.inl rfl

theorem hint_iff (env : IoEnv) (f : Facility) : Core.hint env.commandInfo f = true ↔ Wanted env f := by
  cases f <;> rfl

/-- C58: a logging callback never lets a panic escape.  Without a session it refuses; data that the
policy did not ask for is accepted unseen, unless the plugin wants everything; otherwise the answer is
the plugin's own. -/
theorem C58_log (P : Plugin σ ε) (f : Facility) (buf : Bytes) (st : Slots σ) (o : Out Int) (h : Hist)
    (hr : Runs (Framework.log P f buf st) o h) :
    o = .killed ∨ ∃ r, o = .ok r ∧
      (((st.env = none ∨ st.plugin = none) ∧ r = 0 ∧ h = []) ∨
       ∃ env p, st.env = some env ∧ st.plugin = some p ∧
        ((¬ Wanted env f ∧ P.ignoreHints = false ∧ r = 1 ∧ h = []) ∨
         ((Wanted env f ∨ P.ignoreHints = true) ∧ Reported P env.hasPrintf (P.log f p buf) r h))) := by
  rcases st with ⟨_ | env, pl⟩
  · obtain ⟨s, rfl, rfl⟩ := hr; exact Or.inr ⟨_, rfl, Or.inl ⟨Or.inl rfl, rfl, rfl⟩⟩
  rcases pl with _ | p
  · obtain ⟨s, rfl, rfl⟩ := hr; exact Or.inr ⟨_, rfl, Or.inl ⟨Or.inr rfl, rfl, rfl⟩⟩
  unfold Framework.log at hr
  simp only [M.ofOption_some, M.pure_bind'] at hr
  by_cases hh : (!Core.hint env.commandInfo f && !P.ignoreHints) = true
  · rw [if_pos hh] at hr
    have hw : ¬ Wanted env f ∧ P.ignoreHints = false := by
      rw [← hint_iff]; simpa using hh
    obtain ⟨s, rfl, rfl⟩ := hr
    exact Or.inr ⟨_, rfl, Or.inr ⟨env, p, rfl, rfl, Or.inl ⟨hw.1, hw.2, rfl, rfl⟩⟩⟩
  · rw [if_neg hh] at hr
    have hw : Wanted env f ∨ P.ignoreHints = true := by
      rw [← hint_iff]; simp at hh
      cases hc : Core.hint env.commandInfo f
      · exact Or.inr (hh hc)
      · exact Or.inl rfl
    inv Runs.bind hr with ⟨x, h1, h2, hc, hr, rfl⟩ | ⟨rfl, hc⟩ | ⟨rfl, hc⟩
    · obtain ⟨rfl, rfl⟩ := hr.pure
      rw [List.append_nil]
      rcases reported_runs hc with hk | ⟨y, hy, hrep⟩
      · cases hk
      · cases hy
        exact Or.inr ⟨_, rfl, Or.inr ⟨env, p, rfl, rfl, Or.inr ⟨hw, hrep⟩⟩⟩
    · rcases reported_runs hc with hk | ⟨y, hy, _⟩
      · cases hk
      · cases hy
    · exact Or.inl rfl

/-- C58: the same for `change_winsize`, which has no hint. -/
theorem C58_winsize (P : Plugin σ ε) (l c : Nat) (st : Slots σ) (o : Out Int) (h : Hist)
    (hr : Runs (Framework.changeWinsize P l c st) o h) :
    o = .killed ∨ ∃ r, o = .ok r ∧
      (((st.env = none ∨ st.plugin = none) ∧ r = 0 ∧ h = []) ∨
       ∃ env p, st.env = some env ∧ st.plugin = some p ∧ Reported P env.hasPrintf (P.winsize p l c) r h) := by
  rcases st with ⟨_ | env, pl⟩
  · obtain ⟨s, rfl, rfl⟩ := hr; exact Or.inr ⟨_, rfl, Or.inl ⟨Or.inl rfl, rfl, rfl⟩⟩
  rcases pl with _ | p
  · obtain ⟨s, rfl, rfl⟩ := hr; exact Or.inr ⟨_, rfl, Or.inl ⟨Or.inr rfl, rfl, rfl⟩⟩
  unfold Framework.changeWinsize at hr
  simp only [M.ofOption_some, M.pure_bind'] at hr
  inv Runs.bind hr with ⟨x, h1, h2, hc, hr, rfl⟩ | ⟨rfl, hc⟩ | ⟨rfl, hc⟩
  · obtain ⟨rfl, rfl⟩ := hr.pure
    rw [List.append_nil]
    rcases reported_runs hc with hk | ⟨y, hy, hrep⟩
    · cases hk
    · cases hy
      exact Or.inr ⟨_, rfl, Or.inr ⟨env, p, rfl, rfl, hrep⟩⟩
  · rcases reported_runs hc with hk | ⟨y, hy, _⟩
    · cases hk
    · cases hy
  · exact Or.inl rfl

/-- The plugin object that the run of `makePlugin` produced, and what `open` makes of it. -/
theorem makePlugin_opened {P : Plugin σ ε} {b : Bool} {env : IoEnv} {o h}
    (hne : ¬ Path.eq env.commandInfo.command [] = true)
    (hr : Runs (makePlugin P b env) o h) :
    o = .killed ∨ (o = .panic ∧ Opened P b env (-1) none h) ∨
    (∃ s, o = .ok (.error s) ∧ Opened P b env s.toInt none h) ∨
    (∃ p, o = .ok (.ok p) ∧ Opened P b env 1 (some p) h) := by
  unfold makePlugin at hr
  rw [if_neg hne] at hr
  inv Runs.bind hr with ⟨r, h1, h2, hm, hr, rfl⟩ | ⟨rfl, hm⟩ | ⟨rfl, hm⟩
  · obtain ⟨s, s', hm⟩ := runs_sched hm
    cases r with
    | ok p =>
      obtain ⟨rfl, rfl⟩ := hr.pure
      rw [List.append_nil]
      exact Or.inr (Or.inr (Or.inr ⟨p, rfl, .accepted hm⟩))
    | error e =>
      simp only at hr
      inv Runs.bind hr with ⟨b, h3, h4, hw, hr, rfl⟩ | ⟨rfl, hw⟩ | ⟨rfl, hw⟩
      · obtain ⟨rfl, rfl⟩ := hr.pure
        rw [List.append_nil]
        rcases writeError_complains (name := P.name) rfl rfl hw with k | ⟨k, _⟩ | ⟨_, _, k⟩
        · cases k
        · cases k
        · exact Or.inr (Or.inr (Or.inl ⟨_, rfl, by rw [openCode_eq]; exact .error hm k⟩))
      · rcases writeError_complains (name := P.name) rfl rfl hw with k | ⟨_, k⟩ | ⟨_, k, _⟩
        · cases k
        · exact Or.inr (Or.inl ⟨rfl, .errorPanicked hm k⟩)
        · cases k
      · exact Or.inl rfl
  · obtain ⟨s, s', hm⟩ := runs_sched hm
    exact Or.inr (Or.inl ⟨rfl, .panicked hm⟩)
  · exact Or.inl rfl

/-- Disposal of a superfluous plugin object: what `open` returns after dropping `p`. -/
inductive Disposed (P : Plugin σ ε) (p : σ) : Int → Hist → Prop
  | dropped {s s' h} : P.drop p s = (.ok (), h, s') → Disposed P p 1 h
  | panicked {s s' h} : P.drop p s = (.panic, h, s') → Disposed P p (-1) h

/-- C58: `open` never lets a panic escape.  It refuses unusable arguments as the plugin declares (or
with -1), keeps an environment and a plugin that are already stored, does not run the plugin for an
empty command, and otherwise answers what the plugin's `open` says. -/
theorem C58_open (P : Plugin σ ε) (rt : Rt) (a : OpenArgs) (st : Slots σ) (o : Out (Int × Slots σ))
    (h : Hist) (hr : Runs (Framework.open P rt a st) o h) :
    o = .killed ∨ ∃ r st', o = .ok (r, st') ∧
      ((IoEnv.new rt a = none ∧ r = -1 ∧ st' = st ∧ h = []) ∨
       (∃ e, IoEnv.new rt a = some (.error e) ∧ st' = st ∧
         (r = openCode (P.openStatus (P.fromCore e)) ∧ Complains a.hasPrintf P.name e.display none false h ∨
          r = -1 ∧ Complains a.hasPrintf P.name e.display none true h)) ∨
       (∃ env0 env, IoEnv.new rt a = some (.ok env0) ∧
         (st.env = some env ∨ st.env = none ∧ env = env0) ∧ st'.env = some env ∧
         ((env.commandInfo.command = [] ∧ r = 1 ∧ h = [] ∧ st'.plugin = st.plugin) ∨
          (env.commandInfo.command ≠ [] ∧ st.plugin = none ∧ Opened P a.hasPrintf env r st'.plugin h) ∨
          (env.commandInfo.command ≠ [] ∧ st.plugin ≠ none ∧ st'.plugin = st.plugin ∧
            (Opened P a.hasPrintf env r none h ∨
             ∃ p h1 h2, Opened P a.hasPrintf env 1 (some p) h1 ∧ Disposed P p r h2 ∧ h = h1 ++ h2))))) := by
  unfold Framework.open at hr
  -- the environment
  have henv : ∀ {o h}, Runs (M.catchUnwind (makeEnv P rt a)) o h →
      o = .killed ∨
      (IoEnv.new rt a = none ∧ o = .ok none ∧ h = []) ∨
      (∃ e, IoEnv.new rt a = some (.error e) ∧
        (o = .ok none ∧ Complains a.hasPrintf P.name e.display none true h ∨
         o = .ok (some (.error (P.openStatus (P.fromCore e)))) ∧
          Complains a.hasPrintf P.name e.display none false h)) ∨
      ∃ env, IoEnv.new rt a = some (.ok env) ∧ o = .ok (some (.ok env)) ∧ h = [] := by
    intro o h hr
    have hm : ∀ {o h}, Runs (makeEnv P rt a) o h →
        o = .killed ∨ (IoEnv.new rt a = none ∧ o = .panic ∧ h = []) ∨
        (∃ e, IoEnv.new rt a = some (.error e) ∧
          (o = .panic ∧ Complains a.hasPrintf P.name e.display none true h ∨
           o = .ok (.error (P.openStatus (P.fromCore e))) ∧
            Complains a.hasPrintf P.name e.display none false h)) ∨
        ∃ env, IoEnv.new rt a = some (.ok env) ∧ o = .ok (.ok env) ∧ h = [] := by
      intro o h hr
      unfold makeEnv at hr
      inv Runs.ofOption_bind hr with ⟨hn, rfl, rfl⟩ | ⟨x, hx, hr⟩
      · exact Or.inr (Or.inl ⟨hn, rfl, rfl⟩)
      · cases x with
        | ok env =>
          obtain ⟨rfl, rfl⟩ := hr.pure
          exact Or.inr (Or.inr (Or.inr ⟨env, hx, rfl, rfl⟩))
        | error e =>
          simp only at hr
          inv Runs.bind hr with ⟨b, h3, h4, hw, hr, rfl⟩ | ⟨rfl, hw⟩ | ⟨rfl, hw⟩
          · obtain ⟨rfl, rfl⟩ := hr.pure
            rw [List.append_nil]
            rcases writeError_complains (name := P.name) rfl rfl hw with k | ⟨k, _⟩ | ⟨_, _, k⟩
            · cases k
            · cases k
            · exact Or.inr (Or.inr (Or.inl ⟨e, hx, Or.inr ⟨rfl, k⟩⟩))
          · rcases writeError_complains (name := P.name) rfl rfl hw with k | ⟨_, k⟩ | ⟨_, k, _⟩
            · cases k
            · exact Or.inr (Or.inr (Or.inl ⟨e, hx, Or.inl ⟨rfl, k⟩⟩))
            · cases k
          · exact Or.inl rfl
    inv Runs.catchUnwind hr with ⟨x, rfl, hc⟩ | ⟨rfl, hc⟩ | ⟨rfl, hc⟩
    · rcases hm hc with k | ⟨_, k, _⟩ | ⟨e, k1, ⟨k, _⟩ | ⟨k, k2⟩⟩ | ⟨env, k1, k2, k3⟩
      · cases k
      · cases k
      · cases k
      · cases k; exact Or.inr (Or.inr (Or.inl ⟨e, k1, Or.inr ⟨rfl, k2⟩⟩))
      · cases k2; exact Or.inr (Or.inr (Or.inr ⟨env, k1, rfl, k3⟩))
    · rcases hm hc with k | ⟨k1, _, k2⟩ | ⟨e, k1, ⟨_, k2⟩ | ⟨k, _⟩⟩ | ⟨env, k1, k2, k3⟩
      · cases k
      · exact Or.inr (Or.inl ⟨k1, rfl, k2⟩)
      · exact Or.inr (Or.inr (Or.inl ⟨e, k1, Or.inl ⟨rfl, k2⟩⟩))
      · cases k
      · cases k2
    · exact Or.inl rfl
  inv Runs.bind hr with ⟨x, h1, h2, hc, hr, rfl⟩ | ⟨rfl, hc⟩ | ⟨rfl, hc⟩
  · rcases henv hc with k | ⟨k1, k2, rfl⟩ | ⟨e, k1, ⟨k, k2⟩ | ⟨k, k2⟩⟩ | ⟨env0, k1, k2, rfl⟩
    · cases k
    · cases k2
      obtain ⟨rfl, rfl⟩ := hr.pure
      exact Or.inr ⟨_, _, rfl, Or.inl ⟨k1, rfl, rfl, rfl⟩⟩
    · cases k
      obtain ⟨rfl, rfl⟩ := hr.pure
      rw [List.append_nil]
      exact Or.inr ⟨_, _, rfl, Or.inr (Or.inl ⟨e, k1, rfl, Or.inr ⟨rfl, k2⟩⟩)⟩
    · cases k
      obtain ⟨rfl, rfl⟩ := hr.pure
      rw [List.append_nil]
      exact Or.inr ⟨_, _, rfl, Or.inr (Or.inl ⟨e, k1, rfl, Or.inl ⟨openCode_eq _, k2⟩⟩)⟩
    · cases k2
      simp only at hr
      generalize he : st.env.getD env0 = env at hr
      have hst : st.env = some env ∨ st.env = none ∧ env = env0 := by
        rcases st with ⟨_ | e, pl⟩ <;> simp at he <;> simp [he]
      rw [List.nil_append]
      suffices hs : ∀ {o h}, Runs (M.catchUnwind (makePlugin P a.hasPrintf env) >>= fun y => match y with
          | none => pure (coreOpenStatus.toInt, (⟨some env, st.plugin⟩ : Slots σ))
          | some (.error status) => pure (status.toInt, ⟨some env, st.plugin⟩)
          | some (.ok p) =>
            match st.plugin with
            | none   => pure (OpenStatus.ok.toInt, ⟨some env, some p⟩)
            | some _ => do
              match ← M.catchUnwind (P.drop p) with
              | some () => pure (OpenStatus.ok.toInt, ⟨some env, st.plugin⟩)
              | none    => pure (coreOpenStatus.toInt, ⟨some env, st.plugin⟩)) o h →
          o = .killed ∨ ∃ r st', o = .ok (r, st') ∧ st'.env = some env ∧
          ((env.commandInfo.command = [] ∧ r = 1 ∧ h = [] ∧ st'.plugin = st.plugin) ∨
          (env.commandInfo.command ≠ [] ∧ st.plugin = none ∧ Opened P a.hasPrintf env r st'.plugin h) ∨
          (env.commandInfo.command ≠ [] ∧ st.plugin ≠ none ∧ st'.plugin = st.plugin ∧
            (Opened P a.hasPrintf env r none h ∨
             ∃ p h1 h2, Opened P a.hasPrintf env 1 (some p) h1 ∧ Disposed P p r h2 ∧ h = h1 ++ h2))) by
        rcases hs hr with k | ⟨r, st', k1, k2, k3⟩
        · exact Or.inl k
        · exact Or.inr ⟨r, st', k1, Or.inr (Or.inr ⟨env0, env, ‹_›, hst, k2, k3⟩)⟩
      clear hr hc he
      intro o h hr
      by_cases hne : Path.eq env.commandInfo.command [] = true
      · have hcmd := (path_eq_nil _).1 hne
        have : makePlugin P a.hasPrintf env = pure (.error .ok) := by
          unfold makePlugin; rw [if_pos hne]
        rw [this, M.catchUnwind_pure] at hr
        simp only [pure_bind] at hr
        obtain ⟨rfl, rfl⟩ := hr.pure
        exact Or.inr ⟨_, _, rfl, rfl, Or.inl ⟨hcmd, rfl, rfl, rfl⟩⟩
      have hcmd : env.commandInfo.command ≠ [] := fun h => hne ((path_eq_nil _).2 h)
      inv Runs.bind hr with ⟨y, h1, h2, hc, hr, rfl⟩ | ⟨rfl, hc⟩ | ⟨rfl, hc⟩
      · inv Runs.catchUnwind hc with ⟨z, hy, hc⟩ | ⟨hy, hc⟩ | ⟨hy, hc⟩
        · cases hy
          rcases makePlugin_opened hne hc with k | ⟨k, _⟩ | ⟨s, k, k1⟩ | ⟨p, k, k1⟩
          · cases k
          · cases k
          · cases k
            obtain ⟨rfl, rfl⟩ := hr.pure
            rw [List.append_nil]
            refine Or.inr ⟨_, _, rfl, rfl, Or.inr ?_⟩
            cases hp : st.plugin with
            | none => exact Or.inl ⟨hcmd, rfl, k1⟩
            | some q => exact Or.inr ⟨hcmd, by simp, rfl, Or.inl k1⟩
          · cases k
            simp only at hr
            cases hp : st.plugin with
            | none =>
              rw [hp] at hr
              obtain ⟨rfl, rfl⟩ := hr.pure
              rw [List.append_nil]
              exact Or.inr ⟨_, _, rfl, rfl, Or.inr (Or.inl ⟨hcmd, rfl, k1⟩)⟩
            | some q =>
              rw [hp] at hr
              simp only at hr
              inv Runs.bind hr with ⟨y, h3, h4, hd, hr, rfl⟩ | ⟨rfl, hd⟩ | ⟨rfl, hd⟩
              · inv Runs.catchUnwind hd with ⟨z, hy, hd⟩ | ⟨hy, hd⟩ | ⟨hy, hd⟩
                · cases hy
                  obtain ⟨rfl, rfl⟩ := hr.pure
                  rw [List.append_nil]
                  obtain ⟨s, s', hd⟩ := runs_sched hd
                  exact Or.inr ⟨_, _, rfl, rfl, Or.inr (Or.inr ⟨hcmd, by simp, rfl, Or.inr ⟨p, h1, h3, k1, .dropped hd, rfl⟩⟩)⟩
                · cases hy
                  obtain ⟨rfl, rfl⟩ := hr.pure
                  rw [List.append_nil]
                  obtain ⟨s, s', hd⟩ := runs_sched hd
                  exact Or.inr ⟨_, _, rfl, rfl, Or.inr (Or.inr ⟨hcmd, by simp, rfl, Or.inr ⟨p, h1, h3, k1, .panicked hd, rfl⟩⟩)⟩
                · cases hy
              · inv Runs.catchUnwind hd with ⟨z, hy, hd⟩ | ⟨hy, hd⟩ | ⟨hy, hd⟩ <;> cases hy
              · exact Or.inl rfl
        · cases hy
          rcases makePlugin_opened hne hc with k | ⟨_, k1⟩ | ⟨s, k, k1⟩ | ⟨p, k, k1⟩
          · cases k
          · obtain ⟨rfl, rfl⟩ := hr.pure
            rw [List.append_nil]
            refine Or.inr ⟨_, _, rfl, rfl, Or.inr ?_⟩
            cases hp : st.plugin with
            | none => exact Or.inl ⟨hcmd, rfl, k1⟩
            | some q => exact Or.inr ⟨hcmd, by simp, rfl, Or.inl k1⟩
          · cases k
          · cases k
        · cases hy
      · inv Runs.catchUnwind hc with ⟨z, hy, hc⟩ | ⟨hy, hc⟩ | ⟨hy, hc⟩ <;> cases hy
      · exact Or.inl rfl
  · inv Runs.catchUnwind hc with ⟨z, hy, hc⟩ | ⟨hy, hc⟩ | ⟨hy, hc⟩ <;> cases hy
  · exact Or.inl rfl

/-- C58: `close` always returns, leaves no plugin behind, and forgets the environment unless the
plugin's own `close` panicked. -/
theorem C58_close (P : Plugin σ ε) (x e : Int) (st : Slots σ) (o : Out (Slots σ)) (h : Hist)
    (hr : Runs (Framework.close P x e st) o h) :
    o = .killed ∨ ∃ st', o = .ok st' ∧ st'.plugin = none ∧
      ((st.plugin = none ∧ st'.env = none ∧ h = []) ∨
       ∃ p s s', st.plugin = some p ∧
         ((P.close p x e s = (.ok (), h, s') ∧ st'.env = none) ∨
          (P.close p x e s = (.panic, h, s') ∧ st'.env = st.env))) := by
  unfold Framework.close at hr
  cases hp : st.plugin with
  | none =>
    rw [hp] at hr
    obtain ⟨rfl, rfl⟩ := hr.pure
    exact Or.inr ⟨_, rfl, rfl, Or.inl ⟨rfl, rfl, rfl⟩⟩
  | some p =>
    rw [hp] at hr
    simp only at hr
    inv Runs.bind hr with ⟨y, h1, h2, hc, hr, rfl⟩ | ⟨rfl, hc⟩ | ⟨rfl, hc⟩
    · inv Runs.catchUnwind hc with ⟨z, hy, hc⟩ | ⟨hy, hc⟩ | ⟨hy, hc⟩
      · cases hy
        obtain ⟨rfl, rfl⟩ := hr.pure
        rw [List.append_nil]
        obtain ⟨s, s', hc⟩ := runs_sched hc
        exact Or.inr ⟨_, rfl, rfl, Or.inr ⟨p, s, s', rfl, Or.inl ⟨hc, rfl⟩⟩⟩
      · cases hy
        obtain ⟨rfl, rfl⟩ := hr.pure
        rw [List.append_nil]
        obtain ⟨s, s', hc⟩ := runs_sched hc
        exact Or.inr ⟨_, rfl, rfl, Or.inr ⟨p, s, s', rfl, Or.inr ⟨hc, rfl⟩⟩⟩
      · cases hy
    · inv Runs.catchUnwind hc with ⟨z, hy, hc⟩ | ⟨hy, hc⟩ | ⟨hy, hc⟩ <;> cases hy
    · exact Or.inl rfl

/-- C58: `show_version` refuses without an environment, and otherwise returns 1 unless the plugin
panicked. -/
theorem C58_show_version (P : Plugin σ ε) (v : Int) (st : Slots σ) (o : Out Int) (h : Hist)
    (hr : Runs (Framework.showVersion P v st) o h) :
    o = .killed ∨ ∃ r, o = .ok r ∧
      ((st.env = none ∧ r = -1 ∧ h = []) ∨
       ∃ env s s', st.env = some env ∧
         ((P.showVersion env (v ≠ 0) s = (.ok (), h, s') ∧ r = 1) ∨
          (P.showVersion env (v ≠ 0) s = (.panic, h, s') ∧ r = -1))) := by
  rcases st with ⟨_ | env, pl⟩
  · obtain ⟨s, rfl, rfl⟩ := hr; exact Or.inr ⟨_, rfl, Or.inl ⟨rfl, rfl, rfl⟩⟩
  unfold Framework.showVersion at hr
  simp only [M.ofOption_some, M.pure_bind'] at hr
  inv Runs.bind hr with ⟨y, h1, h2, hc, hr, rfl⟩ | ⟨rfl, hc⟩ | ⟨rfl, hc⟩
  · inv Runs.catchUnwind hc with ⟨z, hy, hc⟩ | ⟨hy, hc⟩ | ⟨hy, hc⟩
    · cases hy
      obtain ⟨rfl, rfl⟩ := hr.pure
      rw [List.append_nil]
      obtain ⟨s, s', hc⟩ := runs_sched hc
      exact Or.inr ⟨_, rfl, Or.inr ⟨env, s, s', rfl, Or.inl ⟨hc, rfl⟩⟩⟩
    · cases hy
      obtain ⟨rfl, rfl⟩ := hr.pure
      rw [List.append_nil]
      obtain ⟨s, s', hc⟩ := runs_sched hc
      exact Or.inr ⟨_, rfl, Or.inr ⟨env, s, s', rfl, Or.inr ⟨hc, rfl⟩⟩⟩
    · cases hy
  · inv Runs.catchUnwind hc with ⟨z, hy, hc⟩ | ⟨hy, hc⟩ | ⟨hy, hc⟩ <;> cases hy
  · exact Or.inl rfl

/-- C58: the return codes are those of sudo's plugin API, and 0 from `open` (go on without the plugin),
-2 (usage) and -1 from a logging callback (never call again) are returned only if an error of the
plugin is declared to mean that. -/
theorem C58_codes (P : Plugin σ ε) (rt : Rt) (c : Framework.Call) (st st' : Slots σ) (r : Int) (h : Hist)
    (hr : Runs (Framework.step P rt c st) (.ok (r, st')) h) :
    match c with
    | .open _ => r = 1 ∨ r = -1 ∨ (r = 0 ∧ ∃ e, P.openStatus e = .disable) ∨
        (r = -2 ∧ ∃ e, P.openStatus e = .usage)
    | .close _ _ => r = 0
    | .showVersion _ => r = 1 ∨ r = -1
    | .log _ _ | .changeWinsize _ _ => r = 1 ∨ r = 0 ∨ (r = -1 ∧ ∃ e, P.logStatus e = .disable) := by
  have hopen : ∀ e : ε, openCode (P.openStatus e) = 1 ∨ openCode (P.openStatus e) = -1 ∨
      (openCode (P.openStatus e) = 0 ∧ ∃ e, P.openStatus e = .disable) ∨
      (openCode (P.openStatus e) = -2 ∧ ∃ e, P.openStatus e = .usage) := by
    intro e
    cases he : P.openStatus e <;> simp [openCode]
    · exact ⟨e, he⟩
    · exact ⟨e, he⟩
  have hlog : ∀ e : ε, logCode (P.logStatus e) = 1 ∨ logCode (P.logStatus e) = 0 ∨
      (logCode (P.logStatus e) = -1 ∧ ∃ e, P.logStatus e = .disable) := by
    intro e
    cases he : P.logStatus e <;> simp [logCode]
    exact ⟨e, he⟩
  have hopened : ∀ {b env r q h}, Opened P b env r q h → r = 1 ∨ r = -1 ∨ (r = 0 ∧ ∃ e, P.openStatus e = .disable) ∨
        (r = -2 ∧ ∃ e, P.openStatus e = .usage) := by
    intro b env r q h ho
    cases ho
    · exact Or.inl rfl
    · exact Or.inr (Or.inl rfl)
    · exact hopen _
    · exact Or.inr (Or.inl rfl)
  have hrep : ∀ {b m r h}, Reported P b m r h → r = 1 ∨ r = 0 ∨ (r = -1 ∧ ∃ e, P.logStatus e = .disable) := by
    intro b m r h ho
    cases ho
    · exact Or.inl rfl
    · exact Or.inr (Or.inl rfl)
    · exact hlog _
    · exact Or.inr (Or.inl rfl)
  have hstep : ∀ {α : Type} {m : M α} {f : α → Int × Slots σ} {h},
      Runs (do let x ← m; pure (f x)) (.ok (r, st')) h → ∃ x, Runs m (.ok x) h ∧ f x = (r, st') := by
    intro α m f h hr
    inv Runs.bind hr with ⟨x, h1, h2, hm, hr, rfl⟩ | ⟨hk, _⟩ | ⟨hk, _⟩
    · obtain ⟨hf, rfl⟩ := hr.pure
      rw [List.append_nil]; simp only [Out.ok.injEq] at hf; exact ⟨x, hm, hf.symm⟩
    · cases hk
    · cases hk
  cases c with
  | «open» a =>
    rcases C58_open P rt a st _ h hr with k | ⟨r', s', k, k1⟩
    · cases k
    · cases k
      rcases k1 with ⟨_, rfl, _⟩ | ⟨e, _, _, ⟨rfl, _⟩ | ⟨rfl, _⟩⟩ | ⟨env0, env, _, _, _, ⟨_, rfl, _⟩ | ⟨_, _, k⟩ | ⟨_, _, _, k | ⟨p, h1, h2, _, k, _⟩⟩⟩
      · exact Or.inr (Or.inl rfl)
      · exact hopen _
      · exact Or.inr (Or.inl rfl)
      · exact Or.inl rfl
      · exact hopened k
      · exact hopened k
      · cases k
        · exact Or.inl rfl
        · exact Or.inr (Or.inl rfl)
  | close x e =>
    obtain ⟨y, _, hf⟩ := hstep hr
    cases hf; rfl
  | showVersion v =>
    obtain ⟨y, hm, hf⟩ := hstep hr
    cases hf
    rcases C58_show_version P v st _ h hm with k | ⟨r', k, ⟨_, rfl, _⟩ | ⟨env, s, s', _, ⟨_, rfl⟩ | ⟨_, rfl⟩⟩⟩
    · cases k
    all_goals cases k; simp
  | log f buf =>
    obtain ⟨y, hm, hf⟩ := hstep hr
    cases hf
    rcases C58_log P f buf st _ h hm with k | ⟨r', k, ⟨_, rfl, _⟩ | ⟨env, p, _, _, ⟨_, _, rfl, _⟩ | ⟨_, k1⟩⟩⟩
    · cases k
    · cases k; exact Or.inr (Or.inl rfl)
    · cases k; exact Or.inl rfl
    · cases k; exact hrep k1
  | changeWinsize l cc =>
    obtain ⟨y, hm, hf⟩ := hstep hr
    cases hf
    rcases C58_winsize P l cc st _ h hm with k | ⟨r', k, ⟨_, rfl, _⟩ | ⟨env, p, _, _, k1⟩⟩
    · cases k
    · cases k; exact Or.inr (Or.inl rfl)
    · cases k; exact hrep k1

/-- C58: no callback of any plugin lets a panic cross into C. -/
theorem C58_no_panic (P : Plugin σ ε) (rt : Rt) (c : Framework.Call) (st : Slots σ) (h : Hist) :
    ¬ Runs (Framework.step P rt c st) .panic h := by
  intro hr
  have hstep : ∀ {α : Type} {m : M α} {f : α → Int × Slots σ} {h},
      Runs (do let x ← m; pure (f x)) .panic h → Runs m .panic h := by
    intro α m f h hr
    inv Runs.bind hr with ⟨x, h1, h2, hm, hr, rfl⟩ | ⟨_, hk⟩ | ⟨hk, _⟩
    · cases hr.pure.1
    · exact hk
    · cases hk
  cases c with
  | «open» a => rcases C58_open P rt a st _ h hr with k | ⟨_, _, k, _⟩ <;> cases k
  | close x e => rcases C58_close P x e st _ h (hstep hr) with k | ⟨_, k, _⟩ <;> cases k
  | showVersion v => rcases C58_show_version P v st _ h (hstep hr) with k | ⟨_, k, _⟩ <;> cases k
  | log f buf => rcases C58_log P f buf st _ h (hstep hr) with k | ⟨_, k, _⟩ <;> cases k
  | changeWinsize l cc => rcases C58_winsize P l cc st _ h (hstep hr) with k | ⟨_, k, _⟩ <;> cases k

/-! ### Histories of callbacks -/

/-- One callback of a trace. -/
structure Framework.Item where
  call : Framework.Call
  ret  : Int
  hist : Hist

/-- Completed callbacks of plugin `P` leading from the initial slots to `st`. -/
inductive Framework.Exec (P : Plugin σ ε) (rt : Rt) : List Framework.Item → Slots σ → Prop
  | nil : Framework.Exec P rt [] Slots.init
  | snoc {tr st c r st' h} : Framework.Exec P rt tr st →
      Runs (Framework.step P rt c st) (.ok (r, st')) h → Framework.Exec P rt (tr ++ [⟨c, r, h⟩]) st'

/-- C58: in every history, the stored plugin object was returned by the plugin's `open` for exactly the
environment that is stored beside it, in an `open` callback that returned 1 and was not followed by
`close`: no callback works on a closed session or on another session's environment. -/
theorem C58_session (P : Plugin σ ε) (rt : Rt) (tr : List Framework.Item) (st : Slots σ)
    (hx : Framework.Exec P rt tr st) (p : σ) (hp : st.plugin = some p) :
    ∃ env, st.env = some env ∧ env.commandInfo.command ≠ [] ∧
      ∃ tr1 a h tr2, tr = tr1 ++ ⟨.open a, 1, h⟩ :: tr2 ∧ Opened P a.hasPrintf env 1 (some p) h ∧
        ∀ x ∈ tr2, ∀ s e, x.call ≠ .close s e := by
  have hstep : ∀ {α : Type} {m : M α} {f : α → Int × Slots σ} {h r st'},
      Runs (do let x ← m; pure (f x)) (.ok (r, st')) h → ∃ x, Runs m (.ok x) h ∧ f x = (r, st') := by
    intro α m f h r st' hr
    inv Runs.bind hr with ⟨x, h1, h2, hm, hr, rfl⟩ | ⟨hk, _⟩ | ⟨hk, _⟩
    · obtain ⟨hf, rfl⟩ := hr.pure
      rw [List.append_nil]; simp only [Out.ok.injEq] at hf; exact ⟨x, hm, hf.symm⟩
    · cases hk
    · cases hk
  induction hx generalizing p with
  | nil => cases hp
  | @snoc tr st c r st' h hx hr ih =>
    -- an earlier session goes on
    have keep : ∀ q, st.plugin = some q → st'.env = st.env → q = p → (∀ s e, c ≠ .close s e) →
        ∃ env, st'.env = some env ∧ env.commandInfo.command ≠ [] ∧
          ∃ tr1 a h' tr2, tr ++ [⟨c, r, h⟩] = tr1 ++ ⟨.open a, 1, h'⟩ :: tr2 ∧
            Opened P a.hasPrintf env 1 (some p) h' ∧ ∀ x ∈ tr2, ∀ s e, x.call ≠ .close s e := by
      rintro q hq he rfl hc
      obtain ⟨env, h1, h2, tr1, a, h', tr2, rfl, h3, h4⟩ := ih q hq
      refine ⟨env, he.trans h1, h2, tr1, a, h', tr2 ++ [⟨c, r, h⟩], by simp, h3, ?_⟩
      exact List.forall_mem_append.2 ⟨h4, by simpa using hc⟩
    cases c with
    | «open» a =>
      rcases C58_open P rt a st _ h hr with k | ⟨r', s', k, k1⟩
      · cases k
      cases k
      rcases k1 with ⟨_, _, rfl, _⟩ | ⟨e, _, rfl, _⟩ | ⟨env0, env, _, he, he', k1⟩
      · exact keep p hp rfl rfl (by simp)
      · exact keep p hp rfl rfl (by simp)
      · have hsame : ∀ q, st.plugin = some q → st'.env = st.env := by
          intro q hq
          obtain ⟨env1, h1, _⟩ := ih q hq
          rcases he with he | ⟨he, _⟩
          · rw [he', he]
          · rw [h1] at he; cases he
        rcases k1 with ⟨_, _, _, k⟩ | ⟨hcmd, hn, k⟩ | ⟨_, _, k, _⟩
        · rw [hp] at k; exact keep p k.symm (hsame p k.symm) rfl (by simp)
        · rw [hp] at k
          have hr1 : r = 1 := by cases k; rfl
          subst hr1
          exact ⟨env, he', hcmd, tr, a, h, [], rfl, k, by simp⟩
        · rw [hp] at k; exact keep p k.symm (hsame p k.symm) rfl (by simp)
    | close x e =>
      obtain ⟨y, hm, hf⟩ := hstep hr
      cases hf
      rcases C58_close P x e st _ h hm with k | ⟨s', k, k1, _⟩
      · cases k
      · cases k; rw [hp] at k1; cases k1
    | showVersion v =>
      obtain ⟨y, hm, hf⟩ := hstep hr
      cases hf; exact keep p hp rfl rfl (by simp)
    | log f buf =>
      obtain ⟨y, hm, hf⟩ := hstep hr
      cases hf; exact keep p hp rfl rfl (by simp)
    | changeWinsize l cc =>
      obtain ⟨y, hm, hf⟩ := hstep hr
      cases hf; exact keep p hp rfl rfl (by simp)

/-- C58: the callbacks of sudo_pair are those of the crate for the plugin `SudoPair`. -/
theorem C58_instance (rt : Rt) (c : Framework.Call) (st : State) (s : Sched) :
    Framework.step (sudoPair rt) rt c (slots st) s =
      match Core.step rt (call c) st s with
      | (.ok x, h, s')   => (.ok (x.1, slots x.2), h, s')
      | (.panic, h, s')  => (.panic, h, s')
      | (.killed, h, s') => (.killed, h, s') := by
  rw [instance_step, M.bind_def]
  rcases Core.step rt (call c) st s with ⟨x | _ | _, h, s'⟩
  · show (_, h ++ [], _) = _; rw [List.append_nil]; rfl
  · rfl
  · rfl

/-! ### A small plugin -/

/-- A plugin whose `close` panics, which refuses output with its only error, and which asks to be left
out of terminal input. -/
def grumpy : Plugin Unit Bool where
  name        := b! "grumpy"
  ignoreHints := true
  display     := fun _ => b! "no"
  source      := fun _ => none
  fromCore    := fun _ => false
  openStatus  := fun _ => .deny
  logStatus   := fun e => if e then .disable else .deny
  showVersion := fun _ _ => M.panic
  «open»      := fun _ => pure (.ok ())
  close       := fun _ _ _ => M.panic
  drop        := fun _ => pure ()
  log         := fun f _ _ => match f with
    | .ttyin => pure (.error true)
    | .stdin => M.panic
    | .stdout => pure (.error false)
    | _ => pure (.ok ())
  winsize     := fun _ _ _ => pure (.ok ())

/-- The return value of a run. -/
def retOf' : Out Int × Hist × Sched → Option Int
  | (.ok r, _, _) => some r
  | _ => none

/-- All cases of `C58_log`: accepted, disabled, panic, error, no session. -/
example :
    retOf' (Framework.log grumpy .ttyout [] ⟨some sampleEnv, some ()⟩ (List.replicate 9 (coop 121))) = some 1 ∧
    retOf' (Framework.log grumpy .ttyin [] ⟨some sampleEnv, some ()⟩ (List.replicate 9 (coop 121))) = some (-1) ∧
    retOf' (Framework.log grumpy .stdin [] ⟨some sampleEnv, some ()⟩ (List.replicate 9 (coop 121))) = some 0 ∧
    retOf' (Framework.log grumpy .stdout [] ⟨some sampleEnv, some ()⟩ (List.replicate 9 (coop 121))) = some 0 ∧
    retOf' (Framework.log grumpy .ttyout [] ⟨some sampleEnv, none⟩ (List.replicate 9 (coop 121))) = some 0 ∧
    retOf' (Framework.showVersion grumpy 0 ⟨some sampleEnv, none⟩ (List.replicate 9 (coop 121))) = some (-1) := by
  decide +kernel

/-- A printf function that writes one byte at a time. -/
def byByte : Answer := fun s => match s with
  | .printf _ _ => .wrote 1
  | s => coop 121 s

/-- One that claims to have written more than it was given. -/
def boast : Answer := fun s => match s with
  | .printf _ b => .wrote (b.length + 1)
  | s => coop 121 s

/-- The report of an error, written in one go and byte by byte, and its end at a printf that miscounts: a refusal,
whatever the error was declared to mean. -/
example :
    (Framework.log grumpy .ttyin [] ⟨some sampleEnv, some ()⟩ (List.replicate 9 (coop 121))).2.1.map (·.1) =
      [.printf 3 (b! "\n"), .printf 3 (b! "grumpy: "), .printf 3 (b! "no"), .printf 3 (b! "\n")] ∧
    (Framework.log grumpy .ttyin [] ⟨some sampleEnv, some ()⟩ (List.replicate 20 byByte)).2.1.length = 12 ∧
    retOf' (Framework.log grumpy .ttyin [] ⟨some sampleEnv, some ()⟩ (List.replicate 20 byByte)) = some (-1) ∧
    retOf' (Framework.log grumpy .ttyin [] ⟨some sampleEnv, some ()⟩ (List.replicate 9 boast)) = some 0 := by
  decide +kernel

/-- `Complains` holds of the first of these histories. -/
example : Complains true (b! "grumpy") (b! "no") none false
    [⟨.printf 3 (b! "\n"), .wrote 1⟩, ⟨.printf 3 (b! "grumpy: "), .wrote 8⟩, ⟨.printf 3 (b! "no"), .wrote 2⟩,
     ⟨.printf 3 (b! "\n"), .wrote 1⟩] :=
  .told rfl rfl (.part 1 (by decide) (by decide) (by decide) (.part 8 (by decide) (by decide) (by decide)
    (.part 2 (by decide) (by decide) (by decide) (.part 1 (by decide) (by decide) (by decide) .nil))))

/-- C58: a plugin that panics in `close` leaves the old environment in place, and the next `open` is
judged by it: the crate's promise of a fresh start needs a `close` that does not panic. -/
theorem C58_panicking_close (rt : Rt) (a : OpenArgs) (env env' : IoEnv)
    (ha : IoEnv.new rt a = some (.ok env')) (hc : env.commandInfo.command ≠ []) :
    Runs (do
      let (_, st) ← Framework.step grumpy rt (.close 0 0) ⟨some env, some ()⟩
      Framework.step grumpy rt (.open a) st) (.ok (1, ⟨some env, some ()⟩)) [] := by
  refine ⟨[], ?_⟩
  have hne : ¬ Path.eq env.commandInfo.command [] = true := fun h => hc ((path_eq_nil _).1 h)
  have : (do
      let (_, st) ← Framework.step grumpy rt (.close 0 0) ⟨some env, some ()⟩
      Framework.step grumpy rt (.open a) st) = (pure (1, ⟨some env, some ()⟩) : M (Int × Slots Unit)) := by
    show (do
      let (_, st) ← (pure (0, ⟨some env, none⟩) : M (Int × Slots Unit))
      Framework.open grumpy rt a st) = _
    simp only [pure_bind, Framework.open, makeEnv, ha, M.ofOption_some, M.catchUnwind_pure,
      Option.getD_some, makePlugin, if_neg hne, grumpy]
    rfl
  rw [this]
  exact ⟨rfl, rfl⟩

/-- The hypotheses of `C58_panicking_close` are satisfiable. -/
example : ∃ env', IoEnv.new sampleRt sampleArgs = some (.ok env') ∧ sampleEnv.commandInfo.command ≠ [] := by
  refine ⟨_, rfl, by decide⟩

/-- A session of sudo_pair through the generic code: approval, mirroring, and `close`. -/
example : (match Framework.step (sudoPair sampleRt) sampleRt (.open sampleArgs) Slots.init
    (List.replicate 60 (coop 121)) with | (.ok (r, _), _, _) => some r | _ => none) = some 1 := by
  decide +kernel

end SudoPair
