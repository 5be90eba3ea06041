import Verif.Model.Ffi
import Verif.Model.Table
/-
Calls from C: the parameter lists of the `extern "C"` functions of sudo_plugin/src/core.rs and of `IoEnv::new`,
whose members of equal type only their order tells apart.  For 64-bit and 32-bit targets.
-/
namespace SudoPair.Abi
open Framework Table Ffi

/-- A register or a slot of the stack: as wide as a pointer. -/
abbrev Word (m : Mem) := BitVec (8 * m.width)

variable {m : Mem}

/-- A parameter of type `c_uint` or `c_int`: the lower 32 bits; anything above may hold anything. -/
def int (w : Word m) : BitVec 32 := w.setWidth 32

/-- A parameter of a pointer type. -/
def ptr (w : Word m) : Nat := w.toNat

/-- The parameter list of `IoEnv::new` (io_env.rs:103-116), without name and version of the plugin.  `sudo_printf_t`
is an `Option` of a function: `None` is the null pointer. -/
def newParams (version argc : BitVec 32) (argv settings userInfo commandInfo userEnv pluginOptions : Nat)
    (printf _conversation : Nat) : RawArgs :=
  { version, hasPrintf := printf ≠ 0, settings, userInfo, commandInfo, argc, argv, userEnv, pluginOptions }

/-- The parameter list of `open` (core.rs:131-143) and how it is passed on (core.rs:153-166). -/
def openParams (version conversation pluginPrintf settingsPtr userInfoPtr commandInfoPtr argc argv userEnvPtr
    pluginOptionsPtr _errstr : Word m) : RawArgs :=
  newParams
    (int version)
    (int argc) (ptr argv)
    (ptr settingsPtr)
    (ptr userInfoPtr)
    (ptr commandInfoPtr)
    (ptr userEnvPtr)
    (ptr pluginOptionsPtr)
    (ptr pluginPrintf)
    (ptr conversation)

variable {σ ε : Type}

/-- `Framework.makeEnv` (core.rs:147-172) with the environment read from memory. -/
def makeEnv (P : Plugin σ ε) (hasPrintf : Bool) (env : Option (Except PluginError IoEnv)) :
    M (Except OpenStatus IoEnv) := do
  match ← M.ofOption env with
  | .ok env => pure (.ok env)
  | .error e =>
    let _ ← (stderr P hasPrintf).writeError e.display none
    pure (.error (P.openStatus (P.fromCore e)))

/-- `Framework.open` (core.rs:131-189) with the environment read from memory. -/
def «open» (P : Plugin σ ε) (rt : Rt) (m : Mem) (a : RawArgs) (st : Slots σ) : Option (M (Int × Slots σ)) := do
  let env ← newEnv rt m a
  pure (do
    match ← M.catchUnwind (makeEnv P a.hasPrintf env) with
    | none => pure (coreOpenStatus.toInt, st)
    | some (.error status) => pure (status.toInt, st)
    | some (.ok env) =>
      let env := st.env.getD env
      let st : Slots σ := { st with env := some env }
      match ← M.catchUnwind (makePlugin P a.hasPrintf env) with
      | none => pure (coreOpenStatus.toInt, st)
      | some (.error status) => pure (status.toInt, st)
      | some (.ok p) =>
        match st.plugin with
        | none   => pure (OpenStatus.ok.toInt, { st with plugin := some p })
        | some _ =>
          match ← M.catchUnwind (P.drop p) with
          | some () => pure (OpenStatus.ok.toInt, st)
          | none    => pure (coreOpenStatus.toInt, st))

/-- `Framework.log` (core.rs:213-340) with the buffer read from memory, if it is looked at. -/
def log (P : Plugin σ ε) (m : Mem) (f : Facility) (buf : Nat) (len : BitVec 32) (st : Slots σ) : Option (M Int) :=
  match st.env, st.plugin with
  | some env, some plugin =>
    if !Core.hint env.commandInfo f && !P.ignoreHints then some (pure LogStatus.ok.toInt)
    else do
      let slice ← bufSlice m buf len
      pure (do
        let r ← M.catchUnwind (do finish P env (← P.log f plugin slice))
        pure (r.getD coreLogStatus).toInt)
  | _, _ => some (pure coreLogStatus.toInt)

/-- A call of one of the functions of core.rs (lines 131, 192, 202, 213, 239, 265, 291, 317, 343) with the arguments
`ws`; `none` stands for undefined behaviour. -/
def enter (P : Plugin σ ε) (rt : Rt) (m : Mem) (f : CoreFn) (ws : List (Word m)) (st : Slots σ) :
    Option (M (Int × Slots σ)) :=
  let logged (f : Facility) (buf len : Word m) := do
    let r ← log P m f (ptr buf) (int len) st
    pure (do let r ← r; pure (r, st))
  match f, ws with
  | .open, [version, conversation, pluginPrintf, settingsPtr, userInfoPtr, commandInfoPtr, argc, argv, userEnvPtr,
      pluginOptionsPtr, errstr] =>
    «open» P rt m (openParams version conversation pluginPrintf settingsPtr userInfoPtr commandInfoPtr argc argv
      userEnvPtr pluginOptionsPtr errstr) st
  | .close, [exitStatus, error] => some (step P rt (.close (int exitStatus).toInt (int error).toInt) st)
  | .showVersion, [verbose] => some (step P rt (.showVersion (int verbose).toInt) st)
  | .logTtyin, [buf, len, _errstr] => logged .ttyin buf len
  | .logTtyout, [buf, len, _errstr] => logged .ttyout buf len
  | .logStdin, [buf, len, _errstr] => logged .stdin buf len
  | .logStdout, [buf, len, _errstr] => logged .stdout buf len
  | .logStderr, [buf, len, _errstr] => logged .stderr buf len
  | .changeWinsize, [line, cols, _errstr] =>
    some (step P rt (.changeWinsize (int line).toNat (int cols).toNat) st)
  | _, _ => none

/-- A call of one of the functions of examples/raw_plugin_api/src/lib.rs (lines 84-134): the call in the model, and
the address that `*errstr = …` writes to. -/
def deny (f : DenyFn) (ws : List (Word m)) : Option (DenyEverything.Call × Option Nat) :=
  match f, ws with
  | .open, [version, conversation, sudoPrintf, _settings, _userInfo, _submitOptind, _submitArgv, _submitEnvp,
      _pluginOptions, _errstr] => some (.open (int version) (ptr conversation ≠ 0) (ptr sudoPrintf ≠ 0), none)
  | .check, [_commandInfo, _runArgv, _runEnvp, errstr] => some (.check, some (ptr errstr))
  | .showVersion, [_verbose] => some (.showVersion, none)
  | _, _ => none

end SudoPair.Abi
