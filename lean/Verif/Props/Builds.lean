import Verif.Props.Gate
import Verif.Lemmas.Lawful
import Verif.Lemmas.Exec
import Verif.Props.Options
/-
C50, C51, C33 at the level of callbacks and whole histories: debug and release builds.
-/
namespace SudoPair

open Spec Core

/-- The same plugin built with debug assertions. -/
abbrev debugBuild (rt : Rt) : Rt := { rt with debug := true }
/-- The same plugin built without debug assertions. -/
abbrev releaseBuild (rt : Rt) : Rt := { rt with debug := false }

/-- The environment a callback decides about: the one `open` will store, or the stored plugin's for
`log_stdin`. -/
def Decides (rt : Rt) (st : State) : Call → IoEnv → Prop
  | .open a, env => ∃ env0, IoEnv.new rt a = some (.ok env0) ∧ env = st.env.getD env0 ∧
      env.commandInfo.command ≠ []
  | .log .stdin _, env => ∃ e p, st.env = some e ∧ st.plugin = some p ∧ e.commandInfo.iologStdin = true ∧
      env = p.env
  | _, _ => False

/-- Refusal of a callback: -1 for `open`, 0 for the others. -/
def refusal : Call → Int
  | .open _ => -1
  | _ => 0

/-- `IoEnv.new` does not depend on the kind of build. -/
theorem ioEnv_new_build (rt : Rt) (d : Bool) (a : OpenArgs) :
    IoEnv.new { rt with debug := d } a = IoEnv.new rt a := rfl

theorem ofOption_some_bind {α β : Type} (a : α) (f : α → M β) : (M.ofOption (some a) >>= f) = f a :=
  pure_bind a f

theorem pairOpen_build (rt : Rt) (env : IoEnv) :
    Pair.open (debugBuild rt) env = Pair.open (releaseBuild rt) env ∨
    ((Pair.ofEnv env).isExempt true = none ∧ Pair.open (debugBuild rt) env = M.panic) := by
  rcases C50_alike (Pair.ofEnv env) with h | h
  · right
    refine ⟨h, ?_⟩
    unfold Pair.open
    show (M.ofOption ((Pair.ofEnv env).isExempt true) >>= _) = _
    rw [h]
    rfl
  · left
    unfold Pair.open
    show (M.ofOption ((Pair.ofEnv env).isExempt true) >>= _) =
      (M.ofOption ((Pair.ofEnv env).isExempt false) >>= _)
    rw [h]
    rfl

theorem makeEnv_build (rt : Rt) (a : OpenArgs) :
    makeEnv (debugBuild rt) a = makeEnv (releaseBuild rt) a := rfl

/-- C50: each callback, from every state and under every schedule of answers of the operating system,
does the same in both builds — or the debug build refuses without interacting with anything, and then
the environment it decides about breaks sudo's consistency rules. -/
theorem C50_callback (rt : Rt) (c : Call) (st : State) (s : Sched) :
    step (debugBuild rt) c st s = step (releaseBuild rt) c st s ∨
    ∃ env st', Decides rt st c env ∧ ¬ Consistent env ∧ st'.plugin = st.plugin ∧
      step (debugBuild rt) c st s = (.ok (refusal c, st'), [], s) := by
  cases c with
  | «open» a =>
    cases hn : IoEnv.new rt a with
    | none =>
      left
      simp only [step, Core.open, makeEnv, ioEnv_new_build, hn]
      rfl
    | some r =>
      cases r with
      | error e =>
        left
        simp only [step, Core.open, makeEnv, ioEnv_new_build, hn, ofOption_some_bind, M.catchUnwind_map,
          bind_assoc, pure_bind]
        refine congrFun (congrArg _ (funext fun x => ?_)) s
        cases x <;> rfl
      | ok env0 =>
        have hd : ∀ d, step { rt with debug := d } (.open a) st =
            (M.catchUnwind (makePlugin { rt with debug := d } a.hasPrintf (st.env.getD env0)) >>= fun r =>
              match r with
              | none => pure (OPEN_DENY, { st with env := some (st.env.getD env0) })
              | some (.error status) => pure (status, { st with env := some (st.env.getD env0) })
              | some (.ok p) =>
                match st.plugin with
                | none => pure (OPEN_OK, { st with env := some (st.env.getD env0), plugin := some p })
                | some _ => do p.drop; pure (OPEN_OK, { st with env := some (st.env.getD env0) })) := by
          intro d
          simp only [step, Core.open, makeEnv, ioEnv_new_build, hn, ofOption_some_bind,
            M.catchUnwind_pure]
          rfl
        rw [hd, hd]
        by_cases hc : (st.env.getD env0).commandInfo.command = []
        · left
          simp only [makePlugin, hc]
          rfl
        · rcases pairOpen_build rt (st.env.getD env0) with h | ⟨h, h'⟩
          · left
            simp only [makePlugin, h]
          · right
            refine ⟨st.env.getD env0, { st with env := some (st.env.getD env0) },
              ⟨env0, hn, rfl, hc⟩, ?_, rfl, ?_⟩
            · intro hcon
              have h1 := C50_consistent (Pair.ofEnv (st.env.getD env0)) hcon
              obtain ⟨b, hb⟩ := C04_total (Pair.ofEnv (st.env.getD env0))
              rw [h, hb] at h1
              simp at h1
            · have he : Path.eq (st.env.getD env0).commandInfo.command [] = false := by rw [Bool.eq_false_iff]; exact fun h => hc ((path_eq_nil _).1 h)
              simp only [makePlugin, h', he]
              rfl
  | close => exact Or.inl rfl
  | showVersion => exact Or.inl rfl
  | log f buf =>
    cases f with
    | stdin =>
      rcases st with ⟨_ | e, _ | p⟩
      · exact Or.inl rfl
      · exact Or.inl rfl
      · exact Or.inl rfl
      · cases hh : e.commandInfo.iologStdin with
        | false =>
          left
          simp only [step, Core.log, hint, hh, ofOption_some_bind, Bool.not_false, if_true]
        | true =>
          rcases C50_alike p with h | h
          · right
            refine ⟨p.env, ⟨some e, some p⟩, ⟨e, p, rfl, rfl, hh, rfl⟩, ?_, rfl, ?_⟩
            · intro hcon
              have h1 := C50_consistent p hcon
              obtain ⟨b, hb⟩ := C04_total p
              rw [h, hb] at h1
              simp at h1
            · simp only [step, Core.log, hint, hh, ofOption_some_bind, handler, Pair.logStdin, h, Bool.not_true,
                Bool.false_eq_true, if_false]
              rfl
          · left
            simp only [step, Core.log, hint, hh, ofOption_some_bind, handler, Pair.logStdin, h]
    | ttyin => exact Or.inl rfl
    | ttyout => exact Or.inl rfl
    | stdout => exact Or.inl rfl
    | stderr => exact Or.inl rfl
  | changeWinsize l c => exact Or.inl rfl
/-- Everything stored obeys sudo's consistency rules. -/
def StoredConsistent (st : State) : Prop :=
  (∀ e, st.env = some e → Consistent e) ∧ (∀ p, st.plugin = some p → Consistent p.env)

theorem pairOpen_env {rt env p h} (hp : PairOpen rt (Pair.ofEnv env) (.ok (.ok p)) h) : p.env = env := by
  cases hp <;> rfl

theorem stored_step {rt c st r st' h} (hs : StoredConsistent st)
    (hc : ∀ a, c = .open a → ∀ env, IoEnv.new rt a = some (.ok env) → Consistent env)
    (hr : Runs (step rt c st) (.ok (r, st')) h) : StoredConsistent st' := by
  have hw : ∀ a env0, c = .open a → IoEnv.new rt a = some (.ok env0) →
      Consistent (effEnv st env0) := by
    intro a env0 h1 h2
    rcases st with ⟨_ | e, _⟩
    · exact hc a h1 env0 h2
    · exact hs.1 e rfl
  cases c with
  | «open» a =>
    generalize ho : (Out.ok (r, st') : Out (Int × State)) = o at hr
    cases coreOpen_runs (show Runs (Core.open rt a st) _ _ from hr) with
    | envPanic h1 => cases ho; exact hs
    | envErr h1 => cases ho; exact hs
    | envKilled h1 => cases ho
    | empty h1 => cases ho; exact ⟨fun e he => by cases he; exact hw a _ rfl h1, hs.2⟩
    | panic h1 => cases ho; exact ⟨fun e he => by cases he; exact hw a _ rfl h1, hs.2⟩
    | killed h1 => cases ho
    | refused h1 => cases ho; exact ⟨fun e he => by cases he; exact hw a _ rfl h1, hs.2⟩
    | refusedKilled h1 => cases ho
    | accepted h1 h2 h3 =>
      cases ho
      refine ⟨fun e he => by cases he; exact hw a _ rfl h1, fun p hp => ?_⟩
      cases hp
      rw [pairOpen_env h3]
      exact hw a _ rfl h1
    | again h1 => cases ho; exact ⟨fun e he => by cases he; exact hw a _ rfl h1, hs.2⟩
    | againKilled h1 => cases ho
  | close =>
    obtain ⟨rfl⟩ : st' = ⟨none, none⟩ := by
      rcases step_bind_runs hr with ⟨r', h1, hm⟩ | ⟨h1, _⟩ | ⟨h1, _⟩
      · simp only [Out.ok.injEq, Prod.mk.injEq] at h1
        rw [h1.2]
        rcases coreClose_runs hm with ⟨h2, _⟩ | ⟨h2, _⟩ | ⟨_, _, _, _, _, _, h2, _⟩
        · simp at h2
        · simpa using h2
        · simpa using h2
      · simp at h1
      · simp at h1
    exact ⟨by simp, by simp⟩
  | showVersion => rw [step_log_state (Or.inr rfl) hr]; exact hs
  | log f buf => have := step_log_state (c := .log f buf) (Or.inl trivial) hr; rw [this]; exact hs
  | changeWinsize l k => have := step_log_state (c := .changeWinsize l k) (Or.inl trivial) hr; rw [this]; exact hs

/-- C50: if sudo obeys its own documented rules whenever it calls `open`, whole histories of callbacks
are the same in both builds: same results, same interaction with the operating system. -/
theorem C50_history (rt : Rt) (cs : List Call) (st : State) (s : Sched) (hs : StoredConsistent st)
    (hc : ∀ a, Call.open a ∈ cs → ∀ env, IoEnv.new rt a = some (.ok env) → Consistent env) :
    run (debugBuild rt) cs st s = run (releaseBuild rt) cs st s := by
  induction cs generalizing st s with
  | nil => rfl
  | cons c cs ih =>
    have hstep : step (debugBuild rt) c st s = step (releaseBuild rt) c st s := by
      rcases C50_callback rt c st s with h | ⟨env, st', h1, h2, _⟩
      · exact h
      · exfalso
        apply h2
        cases c with
        | «open» a =>
          obtain ⟨env0, h3, rfl, _⟩ := h1
          rcases st with ⟨_ | e, _⟩
          · exact hc a (by simp) env0 h3
          · exact hs.1 e rfl
        | log f buf =>
          cases f with
          | stdin => obtain ⟨e, p, _, h3, _, rfl⟩ := h1; exact hs.2 p h3
          | _ => exact h1.elim
        | _ => exact h1.elim
    unfold run
    rw [M.bind_def, M.bind_def, hstep]
    rcases hm : step (releaseBuild rt) c st s with ⟨⟨r, st'⟩ | _ | _, h, s'⟩
    · have hs' := stored_step (rt := releaseBuild rt) hs
        (fun a ha env he => hc a (by simp [ha]) env he) (runs_of hm)
      simp only
      rw [M.bind_def, M.bind_def, ih st' s' hs' (fun a ha => hc a (by simp [ha]))]
    · rfl
    · rfl

/-- Non-vacuity: `C50_history` applies to an approved session; and a consistent history in which the
builds differ is impossible, but with inconsistent arguments (neither `runas_groups` nor
`preserve_groups`) the debug build refuses what the release build allows. -/
example :
    (∀ env, IoEnv.new sampleRt sampleArgs = some (.ok env) → Consistent env) ∧
    retsOf (run (debugBuild sampleRt) [.open sampleArgs, .log .stdout [1], .close] init
      (List.replicate 60 (coop 121))).1 = some [1, 1, 0] ∧
    (let a : OpenArgs := { sampleArgs with commandInfo := some [b! "command=/bin/ls", b! "runas_uid=0",
        b! "runas_gid=0", b! "iolog_stdout=true"] }
     retOf (step (debugBuild sampleRt) (.open a) init (List.replicate 60 (coop 121))).1 = some (-1) ∧
     retOf (step (releaseBuild sampleRt) (.open a) init (List.replicate 60 (coop 121))).1 = some 1) := by
  refine ⟨?_, by decide +kernel, by decide +kernel⟩
  intro env h
  have h' : IoEnv.new sampleRt sampleArgs = some (.ok _) := rfl
  rw [h'] at h
  simp only [Option.some.injEq, Except.ok.injEq] at h
  subst h
  exact ⟨by decide, fun h => absurd h.1 (by decide)⟩

/-! ### C51 -/

/-- C51 (partial), callback level: when a debug build lets a user who is not root run a command as
themselves, the command gets no group that the user does not have.  Full statement: also in a release
build; that is false, `C51_counterexample`. -/
theorem C51_open_partial (rt : Rt) (a : OpenArgs) (st st' : State) (env0 : IoEnv) (h : Hist)
    (hnew : IoEnv.new rt a = some (.ok env0)) (hself : Themselves (st.env.getD env0))
    (hne : (st.env.getD env0).userInfo.uid ≠ (st.env.getD env0).userInfo.euid)
    (hcmd : (st.env.getD env0).commandInfo.command ≠ [])
    (hr : Runs (Core.open (debugBuild rt) a st) (.ok (1, st')) h) :
    h = [] ∧ ∀ g, RunsWith (st.env.getD env0) g → g ∈ (st.env.getD env0).userInfo.groups := by
  have key : ∀ {o' h'}, PairOpen (debugBuild rt) (Pair.ofEnv (effEnv st env0)) o' h' →
      (∃ p, o' = .ok (.ok p)) → o' = .ok (.ok (Pair.ofEnv (effEnv st env0))) ∧ h' = [] ∧
        (Pair.ofEnv (effEnv st env0)).isExempt true = some true := by
    intro o' h' hp ho
    cases hp <;> simp_all
    all_goals
      have hx := C04_rule true (Pair.ofEnv (effEnv st env0)) false (by assumption)
      exact absurd (hx.2 (Or.inr (Or.inl hself))) (by simp)
  have fin := fun hx => (C51_themselves_partial (Pair.ofEnv (effEnv st env0)) hself hne hx).2
  generalize ho : (Out.ok (1, st') : Out (Int × State)) = o at hr
  cases coreOpen_runs hr with
  | envPanic h1 => simp at ho
  | envErr h1 => simp at ho
  | envKilled h1 => simp at ho
  | empty h1 h2 => rw [ioEnv_new_build, hnew] at h1; cases h1; exact absurd h2 hcmd
  | panic h1 => simp at ho
  | killed h1 => simp at ho
  | refused h1 => simp at ho
  | refusedKilled h1 => simp at ho
  | accepted h1 h2 h3 h4 =>
    rw [ioEnv_new_build, hnew] at h1; cases h1
    obtain ⟨_, h6, h7⟩ := key h3 ⟨_, rfl⟩
    exact ⟨h6, fin h7⟩
  | again h1 h2 h3 h4 h5 =>
    rw [ioEnv_new_build, hnew] at h1; cases h1
    obtain ⟨h8, h6, h7⟩ := key h3 ⟨_, rfl⟩
    simp only [Out.ok.injEq, Except.ok.injEq] at h8
    subst h8 h6
    refine ⟨?_, fin h7⟩
    exact (Runs.pure h5).2
  | againKilled h1 => simp at ho

/-! ### C33 -/

/-- C33 (partial): when the configured `gids_enforced` is well-formed, a session running with a listed
gid needs a pair unless it is exempt for one of the five other documented reasons.  Full statement:
also when another element of the list is malformed; that is false, see `C33_malformed`. -/
theorem C33_session_partial (rt : Rt) (a : OpenArgs) (env : IoEnv) (v : Bytes) (xs : List Nat) (g : Nat)
    (hnew : IoEnv.new rt a = some (.ok env)) (hv : Value a.pluginOptions (b! "gids_enforced") v)
    (hwf : DenotesIds v xs) (hg : g ∈ xs) (hrun : RunsWith env g) :
    SessionExempt env ↔
      env.userInfo.uid = env.userInfo.euid ∨ Themselves env ∨
      SamePath env.commandInfo.command (optionsOf env).binaryPath ∨ Unlogged env ∨
      ∃ g ∈ (optionsOf env).gidsExempted, g ∈ env.userInfo.groups := by
  have hin : g ∈ (optionsOf env).gidsEnforced := by
    have h1 := (C32_session hnew).2.2.2.2.1.1 v xs hv
      (utf8_of_ascii (denotesList_ascii (by decide) (fun _ _ h => denotesU_ascii h) hwf)) hwf
    exact (congrArg (g ∈ ·) h1).mpr hg
  unfold SessionExempt Exempt
  constructor
  · rintro (h | h | h | h | h | h)
    · exact Or.inl h
    · exact Or.inr (Or.inl h)
    · exact Or.inr (Or.inr (Or.inl h))
    · exact Or.inr (Or.inr (Or.inr (Or.inl h)))
    · exact Or.inr (Or.inr (Or.inr (Or.inr h)))
    · exact absurd hrun (h g hin)
  · rintro (h | h | h | h | h)
    · exact Or.inl h
    · exact Or.inr (Or.inl h)
    · exact Or.inr (Or.inr (Or.inl h))
    · exact Or.inr (Or.inr (Or.inr (Or.inl h)))
    · exact Or.inr (Or.inr (Or.inr (Or.inr (Or.inl h))))

/-- C33 fails for every malformed list: just gid 0 is enforced, and no other gid that is listed. -/
theorem C33_malformed (vec : Option (List Bytes)) (v : Bytes)
    (hv : Value vec (b! "gids_enforced") v) (hbad : ¬ ∃ xs, DenotesIds v xs) :
    (PluginOptions.ofMap (.fromRaw vec)).gidsEnforced = [0] := by
  refine (C32_plugin_options vec).2.2.2.2.1.2 ?_
  rintro ⟨w, a, h1, h2, h3⟩
  have e1 := (fromRaw_getBytes ..).2 h1
  have e2 := (fromRaw_getBytes ..).2 hv
  rw [e1] at e2
  simp only [Option.some.injEq] at e2
  subst e2
  exact hbad ⟨a, h3⟩

/-- Non-vacuity: a debug session to oneself (`C51_open_partial`); a session running with the listed gid 27
which needs a pair (`C33_session_partial`); a malformed list (`C33_malformed`). -/
example :
    (let a : OpenArgs := { sampleArgs with commandInfo := some [b! "command=/bin/ls", b! "runas_uid=1000",
        b! "runas_gid=1000", b! "runas_groups=1000,27", b! "iolog_stdout=true"] }
     retOf (Core.open (debugBuild sampleRt) a init []).1 = some 1) ∧
    (∃ env, IoEnv.new sampleRt { sampleArgs with
        pluginOptions := some [b! "gids_enforced=27"]
        commandInfo := some [b! "command=/bin/ls", b! "runas_uid=0", b! "runas_gid=0",
          b! "runas_groups=0,27", b! "iolog_stdout=true"] } = some (.ok env) ∧
      (Pair.ofEnv env).isExempt false = some false ∧ RunsWith env 27) ∧
    DenotesIds (b! "27") [27] ∧ ¬ ∃ xs, DenotesIds (b! "27,wheel") xs := by
  refine ⟨by decide +kernel, ⟨_, rfl, by decide, ?_⟩, ?_, ?_⟩
  · exact Or.inr (Or.inl ⟨[0, 27], by decide, by decide⟩)
  · exact (parseList_iff (parseUInt_iff 32) _ _).1 (by decide)
  · rintro ⟨xs, h⟩
    have := (parseList_iff (parseUInt_iff 32) _ _).2 h
    revert this
    rw [show parseList (parseUInt 32) (b! "27,wheel") = none by decide]
    simp

end SudoPair
