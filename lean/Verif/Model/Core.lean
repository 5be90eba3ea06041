import Verif.Model.Pair
/-
The C callbacks: sudo_plugin/src/core.rs and sudo_plugin/src/plugin/io_state.rs, instantiated with
`SudoPair` (macros.rs:65-110).
-/
namespace SudoPair

/-- The log facilities of the sudo I/O plugin API. -/
inductive Facility where
  | ttyin | ttyout | stdin | stdout | stderr
  deriving DecidableEq, Repr

/-- The two `static mut` slots (macros.rs:73-74). -/
structure State where
  env    : Option IoEnv
  plugin : Option Pair
  deriving DecidableEq, Repr

namespace Core

/-- The initial contents of the slots (macros.rs:73-74). -/
def init : State := ⟨none, none⟩

/-- `OpenStatus::Ok` (core.rs:44). -/
def OPEN_OK : Int := 1
/-- `OpenStatus::Deny` (core.rs:53); every error of both crates maps to it (sudo_pair errors.rs:79-83,
sudo_plugin errors.rs:82-87). -/
def OPEN_DENY : Int := -1
/-- `LogStatus::Ok` (core.rs:74). -/
def LOG_OK : Int := 1
/-- `LogStatus::Deny` (core.rs:78); every error of both crates maps to it (sudo_pair errors.rs:85-89,
sudo_plugin errors.rs:89-94). -/
def LOG_DENY : Int := 0

/-- `IoEnv::new` with error reporting (core.rs:147-172). -/
def makeEnv (rt : Rt) (a : OpenArgs) : M (Except Int IoEnv) := do
  match ← M.ofOption (IoEnv.new rt a) with
  | .ok env => pure (.ok env)
  | .error e =>
    let _ ← (PrintFacility.stderr a.hasPrintf).writeError e.display none
    pure (.error OPEN_DENY)

/-- The closure passed to `S::init` (core.rs:174-187).  `.error OPEN_OK` is the early success for an
empty command path (`sudo -V`). -/
def makePlugin (rt : Rt) (hasPrintf : Bool) (env : IoEnv) : M (Except Int Pair) := do
  if Path.eq env.commandInfo.command [] then pure (.error OPEN_OK)
  else
    match ← Pair.open rt env with
    | .ok p => pure (.ok p)
    | .error e =>
      let _ ← (PrintFacility.stderr hasPrintf).writeError e.display none
      pure (.error OPEN_DENY)

/-- The `open` callback (core.rs:131-189) with `IoState::init` (io_state.rs:54-67): `get_or_insert`
keeps an environment or plugin that is already stored; a superfluous new plugin is dropped.  A
panic is caught at the boundary and leaves the slots as they were at that point. -/
def «open» (rt : Rt) (a : OpenArgs) (st : State) : M (Int × State) := do
  match ← M.catchUnwind (makeEnv rt a) with
  | none => pure (OPEN_DENY, st)
  | some (.error status) => pure (status, st)
  | some (.ok env) =>
    let env := st.env.getD env
    let st : State := { st with env := some env }
    match ← M.catchUnwind (makePlugin rt a.hasPrintf env) with
    | none => pure (OPEN_DENY, st)
    | some (.error status) => pure (status, st)
    | some (.ok p) =>
      match st.plugin with
      | none   => pure (OPEN_OK, { st with plugin := some p })
      | some _ =>
        p.drop
        pure (OPEN_OK, st)

/-- The `close` callback (core.rs:192-199) with `IoState::drop` (io_state.rs:78-84). -/
def close (st : State) : M State := do
  match st.plugin with
  | none   => pure ()
  | some p => p.close
  pure ⟨none, none⟩

/-- The pieces that `writeln!` passes to `write_all` (io_plugin.rs:54-63).  `Self::VERSION` defaults to
the `CARGO_PKG_VERSION` of the crate *sudo_plugin*, 1.2.0. -/
def versionPieces : List Bytes :=
  [b! "sudo_pair", b! " I/O plugin version ", b! "1.2.0", b! "\n"]

/-- `write_fmt`: successive `write_all`s, stopping at the first error. -/
def writePieces (pf : PrintFacility) : List Bytes → M Bool
  | []      => pure true
  | p :: ps => do if ← pf.writeAll p then writePieces pf ps else pure false

/-- The `show_version` callback (core.rs:202-210). -/
def showVersion (st : State) : M Int := do
  let r ← M.catchUnwind (do
    let env ← M.ofOption st.env
    let _ ← writePieces (PrintFacility.stdout env.hasPrintf) versionPieces
    pure ())
  match r with
  | some () => pure OPEN_OK
  | none    => pure OPEN_DENY

/-- The `iolog_*` hint consulted for a facility (core.rs:222, 248, 274, 300, 326). -/
def hint (ci : CommandInfo) : Facility → Bool
  | .ttyin  => ci.iologTtyin
  | .ttyout => ci.iologTtyout
  | .stdin  => ci.iologStdin
  | .stdout => ci.iologStdout
  | .stderr => ci.iologStderr

/-- The plugin's handler for a facility (lib.rs:209-228; `log_ttyin` is not overridden, so it is the
default of io_plugin.rs: `Ok(())`). -/
def handler (rt : Rt) (p : Pair) (buf : Bytes) : Facility → M (Except ErrorKind Unit)
  | .ttyin  => pure (.ok ())
  | .ttyout => p.logOutput buf
  | .stdin  => p.logStdin rt
  | .stdout => p.logOutput buf
  | .stderr => p.logOutput buf

/-- Conversion of a handler result, printing an error first (e.g. core.rs:231-234). -/
def finish (env : IoEnv) : Except ErrorKind Unit → M Int
  | .ok ()   => pure LOG_OK
  | .error e => do
    let _ ← (PrintFacility.stderr env.hasPrintf).writeError e.display none
    pure LOG_DENY

/-- The `log_*` callbacks (core.rs:213-340). -/
def log (rt : Rt) (f : Facility) (buf : Bytes) (st : State) : M Int := do
  let r ← M.catchUnwind (do
    let env ← M.ofOption st.env
    let plugin ← M.ofOption st.plugin
    if !hint env.commandInfo f then pure LOG_OK
    else finish env (← handler rt plugin buf f))
  pure (r.getD LOG_DENY)

/-- The `change_winsize` callback (core.rs:343-357). -/
def changeWinsize (lines cols : Nat) (st : State) : M Int := do
  let r ← M.catchUnwind (do
    let env ← M.ofOption st.env
    let plugin ← M.ofOption st.plugin
    finish env (← plugin.changeWinsize lines cols))
  pure (r.getD LOG_DENY)

/-- The callbacks sudo can invoke (the table in macros.rs:94-108). -/
inductive Call where
  | «open» (a : OpenArgs)
  | close
  | showVersion
  | log (f : Facility) (buf : Bytes)
  | changeWinsize (lines cols : Nat)
  deriving DecidableEq, Repr

/-- One callback: return value (0 for `close`, which returns nothing) and the new slots. -/
def step (rt : Rt) (c : Call) (st : State) : M (Int × State) :=
  match c with
  | .open a             => «open» rt a st
  | .close              => do let st ← close st; pure (0, st)
  | .showVersion        => do let r ← showVersion st; pure (r, st)
  | .log f buf          => do let r ← log rt f buf st; pure (r, st)
  | .changeWinsize l c  => do let r ← changeWinsize l c st; pure (r, st)

/-- A sequence of callbacks in one process: return values in order, and the final slots. -/
def run (rt : Rt) : List Call → State → M (List Int × State)
  | [],      st => pure ([], st)
  | c :: cs, st => do
    let (r, st) ← step rt c st
    let (rs, st) ← run rt cs st
    pure (r :: rs, st)

end Core
end SudoPair
