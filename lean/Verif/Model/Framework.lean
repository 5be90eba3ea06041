import Verif.Model.Core
/-
The crate sudo_plugin for an arbitrary plugin: core.rs, plugin/io_plugin.rs, plugin/io_state.rs and
macros.rs as generic code.  Model/Core is the instance for `SudoPair` (`instance_step` in
Props/Framework).
-/
namespace SudoPair.Framework

/-- `OpenStatus` (core.rs:40-60). -/
inductive OpenStatus where
  | ok | disable | deny | usage
  deriving DecidableEq, Repr

/-- The discriminants (core.rs:43-59). -/
def OpenStatus.toInt : OpenStatus → Int
  | .ok      => 1
  | .disable => 0
  | .deny    => -1
  | .usage   => -2

/-- `LogStatus` (core.rs:71-84). -/
inductive LogStatus where
  | ok | deny | disable
  deriving DecidableEq, Repr

/-- The discriminants (core.rs:73-83). -/
def LogStatus.toInt : LogStatus → Int
  | .ok      => 1
  | .deny    => 0
  | .disable => -1

/-- `Error::UncaughtPanic.into()` and every other error of the crate as an `OpenStatus`
(errors.rs:82-87). -/
def coreOpenStatus : OpenStatus := .deny
/-- `Error::UncaughtPanic.into()` as a `LogStatus` (errors.rs:89-94). -/
def coreLogStatus : LogStatus := .deny

/-- An implementation of `IoPlugin` (io_plugin.rs:26-186) with its error type (`SudoError`,
errors.rs:73-80): arbitrary code, except that the methods taking `&self` keep no state of their own
inside the value (no interior mutability). `σ` is the type implementing the trait, `ε` its errors. -/
structure Plugin (σ ε : Type) where
  /-- `NAME` -/
  name        : Bytes
  /-- `IGNORE_IOLOG_HINTS` -/
  ignoreHints : Bool
  /-- `Display` of an error -/
  display     : ε → Bytes
  /-- `Display` of `source()` -/
  source      : ε → Option Bytes
  /-- `From<sudo_plugin::errors::Error>` -/
  fromCore    : PluginError → ε
  /-- `Into<OpenStatus>` -/
  openStatus  : ε → OpenStatus
  /-- `Into<LogStatus>` -/
  logStatus   : ε → LogStatus
  /-- `show_version` -/
  showVersion : IoEnv → Bool → M Unit
  /-- `open` -/
  «open»      : IoEnv → M (Except ε σ)
  /-- `close` (takes `self`, so it includes dropping it) -/
  close       : σ → Int → Int → M Unit
  /-- `Drop` -/
  drop        : σ → M Unit
  /-- `log_ttyin`, `log_ttyout`, `log_stdin`, `log_stdout`, `log_stderr` -/
  log         : Facility → σ → Bytes → M (Except ε Unit)
  /-- `change_winsize` -/
  winsize     : σ → Nat → Nat → M (Except ε Unit)

variable {σ ε : Type}

/-- The two `static mut` slots (macros.rs:73-74). -/
structure Slots (σ : Type) where
  env    : Option IoEnv
  plugin : Option σ

/-- Their initial contents (macros.rs:73-74). -/
def Slots.init : Slots σ := ⟨none, none⟩

/-- `PrintFacility::new(Some(P::NAME), printf).1` (print_facility.rs:57-68). -/
def stderr (P : Plugin σ ε) (hasPrintf : Bool) : PrintFacility := ⟨hasPrintf, 3, P.name ++ b! ": "⟩

/-- `IoEnv::new` with error reporting (core.rs:147-172). -/
def makeEnv (P : Plugin σ ε) (rt : Rt) (a : OpenArgs) : M (Except OpenStatus IoEnv) := do
  match ← M.ofOption (IoEnv.new rt a) with
  | .ok env => pure (.ok env)
  | .error e =>
    let _ ← (stderr P a.hasPrintf).writeError e.display none
    pure (.error (P.openStatus (P.fromCore e)))

/-- The closure passed to `S::init` (core.rs:174-187). -/
def makePlugin (P : Plugin σ ε) (hasPrintf : Bool) (env : IoEnv) : M (Except OpenStatus σ) := do
  if Path.eq env.commandInfo.command [] then pure (.error .ok)
  else
    match ← P.open env with
    | .ok p => pure (.ok p)
    | .error e =>
      let _ ← (stderr P hasPrintf).writeError (P.display e) (P.source e)
      pure (.error (P.openStatus e))

/-- The `open` callback (core.rs:131-189, io_state.rs:54-67).  All of it runs inside one
`catch_unwind`; splitting it keeps track of which slots are filled when a panic occurs. -/
def «open» (P : Plugin σ ε) (rt : Rt) (a : OpenArgs) (st : Slots σ) : M (Int × Slots σ) := do
  match ← M.catchUnwind (makeEnv P rt a) with
  | none => pure (coreOpenStatus.toInt, st)
  | some (.error status) => pure (status.toInt, st)
  | some (.ok env) =>
    let env := st.env.getD env
    let st : Slots σ := { st with env := some env }
    match ← M.catchUnwind (makePlugin P a.hasPrintf env) with
    | none => pure (coreOpenStatus.toInt, st)
    | some (.error status) => pure (status.toInt, st)
    | some (.ok p) =>
      match st.plugin with
      | none   => pure (OpenStatus.ok.toInt, { st with plugin := some p })
      | some _ =>
        match ← M.catchUnwind (P.drop p) with
        | some () => pure (OpenStatus.ok.toInt, st)
        | none    => pure (coreOpenStatus.toInt, st)

/-- The `close` callback (core.rs:192-199, io_state.rs:78-84): the plugin is taken out first, so a
panic in its `close` leaves the environment in place. -/
def close (P : Plugin σ ε) (exitStatus error : Int) (st : Slots σ) : M (Slots σ) := do
  match st.plugin with
  | none   => pure ⟨none, none⟩
  | some p =>
    match ← M.catchUnwind (P.close p exitStatus error) with
    | some () => pure ⟨none, none⟩
    | none    => pure ⟨st.env, none⟩

/-- The `show_version` callback (core.rs:202-210). -/
def showVersion (P : Plugin σ ε) (verbose : Int) (st : Slots σ) : M Int := do
  let r ← M.catchUnwind (do
    let env ← M.ofOption st.env
    P.showVersion env (verbose ≠ 0))
  match r with
  | some () => pure OpenStatus.ok.toInt
  | none    => pure coreOpenStatus.toInt

/-- Conversion of the result of a logging method, printing an error first (e.g. core.rs:231-234). -/
def finish (P : Plugin σ ε) (env : IoEnv) : Except ε Unit → M LogStatus
  | .ok ()   => pure .ok
  | .error e => do
    let _ ← (stderr P env.hasPrintf).writeError (P.display e) (P.source e)
    pure (P.logStatus e)

/-- The `log_*` callbacks (core.rs:213-340). -/
def log (P : Plugin σ ε) (f : Facility) (buf : Bytes) (st : Slots σ) : M Int := do
  let r ← M.catchUnwind (do
    let env ← M.ofOption st.env
    let plugin ← M.ofOption st.plugin
    if !Core.hint env.commandInfo f && !P.ignoreHints then pure LogStatus.ok
    else finish P env (← P.log f plugin buf))
  pure (r.getD coreLogStatus).toInt

/-- The `change_winsize` callback (core.rs:343-357). -/
def changeWinsize (P : Plugin σ ε) (lines cols : Nat) (st : Slots σ) : M Int := do
  let r ← M.catchUnwind (do
    let env ← M.ofOption st.env
    let plugin ← M.ofOption st.plugin
    finish P env (← P.winsize plugin lines cols))
  pure (r.getD coreLogStatus).toInt

/-- The callbacks sudo can invoke (macros.rs:94-108). -/
inductive Call where
  | «open» (a : OpenArgs)
  | close (exitStatus error : Int)
  | showVersion (verbose : Int)
  | log (f : Facility) (buf : Bytes)
  | changeWinsize (lines cols : Nat)

/-- One callback: return value (0 for `close`, which returns nothing) and the new slots. -/
def step (P : Plugin σ ε) (rt : Rt) (c : Call) (st : Slots σ) : M (Int × Slots σ) :=
  match c with
  | .open a            => «open» P rt a st
  | .close x e         => do let st ← close P x e st; pure (0, st)
  | .showVersion v     => do let r ← showVersion P v st; pure (r, st)
  | .log f buf         => do let r ← log P f buf st; pure (r, st)
  | .changeWinsize l c => do let r ← changeWinsize P l c st; pure (r, st)

/-- `impl IoPlugin for SudoPair` (sudo_pair/src/lib.rs:109-233, sudo_pair/src/errors.rs:79-97). -/
def sudoPair (rt : Rt) : Plugin Pair (PluginError ⊕ ErrorKind) where
  name        := b! "sudo_pair"
  ignoreHints := false
  display     := fun e => match e with | .inl e => e.display | .inr e => e.display
  source      := fun _ => none
  fromCore    := .inl
  openStatus  := fun _ => .deny
  logStatus   := fun _ => .deny
  showVersion := fun env _ => do
    let _ ← Core.writePieces (PrintFacility.stdout env.hasPrintf) Core.versionPieces
    pure ()
  «open»      := fun env => do
    match ← Pair.open rt env with
    | .ok p    => pure (.ok p)
    | .error e => pure (.error (.inr e))
  close       := fun p _ _ => p.close
  drop        := Pair.drop
  log         := fun f p buf => do
    match ← Core.handler rt p buf f with
    | .ok u    => pure (.ok u)
    | .error e => pure (.error (.inr e))
  winsize     := fun p l c => do
    match ← p.changeWinsize l c with
    | .ok u    => pure (.ok u)
    | .error e => pure (.error (.inr e))

/-- The slots of `SudoPair`. -/
def slots (st : State) : Slots Pair := ⟨st.env, st.plugin⟩

/-- The call without the arguments that `SudoPair` ignores. -/
def call : Call → Core.Call
  | .open a            => .open a
  | .close _ _         => .close
  | .showVersion _     => .showVersion
  | .log f buf         => .log f buf
  | .changeWinsize l c => .changeWinsize l c

end SudoPair.Framework
