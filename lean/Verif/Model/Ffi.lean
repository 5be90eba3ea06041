import Verif.Model.Core
/-
Reading sudo's arguments from memory: the `unsafe` code of sudo_plugin/src/options/option_map.rs,
sudo_plugin/src/plugin/io_env.rs and sudo_plugin/src/core.rs.  The rest of the model works on
decoded arguments (`OpenArgs`, `Bytes`); here the decoding itself is modelled.

A result `none` of type `Option` means undefined behaviour: a read outside of the memory sudo provides, a
misaligned read, a NULL pointer where Rust does not allow one, an object larger than Rust allows, or a loop that does
not end.
-/
namespace SudoPair.Ffi

/-- The memory of the process that may be read: bytes, and pointers, by address; and whether it is that of a 64-bit
or of a 32-bit target. -/
structure Mem where
  is64 : Bool
  byte : Nat → Option UInt8
  ptr  : Nat → Option Nat

/-- The size of a pointer and of `usize`, in bytes. -/
def Mem.width (m : Mem) : Nat := if m.is64 then 8 else 4

/-- `isize::MAX`: no object has more bytes. -/
def Mem.isizeMax (m : Mem) : Nat := 2 ^ (8 * m.width - 1) - 1

/-- `*p` for `p : *const *const c_char`: `p` must not be NULL, and must be aligned. -/
def deref (m : Mem) (p : Nat) : Option Nat := if p = 0 ∨ p % m.width ≠ 0 then none else m.ptr p

/-- The loop of `strlen` in `CStr::from_ptr`. -/
def strFrom (m : Mem) (p : Nat) : Option Bytes := do
  let b ← m.byte p
  if b = 0 then pure []
  else do
    let s ← strFrom m (p + 1)
    pure (b :: s)
partial_fixpoint

/-- `CStr::from_ptr(p).to_bytes()` (option_map.rs:67, io_env.rs:133); `p` must not be NULL, and the end of the string
must be within `isize::MAX` bytes. -/
def cstr (m : Mem) (p : Nat) : Option Bytes :=
  if p = 0 then none
  else do
    let s ← strFrom m p
    if s.length > m.isizeMax then none else pure s

/-- The loop of `OptionMap::from_raw` (option_map.rs:66-93). -/
def fromRawLoop (m : Mem) (p : Nat) (map : OptionMap) : Option OptionMap := do
  let e ← deref m p
  if e = 0 then pure map
  else do
    let bytes ← cstr m e
    fromRawLoop m (p + m.width) (map.insert (OptionMap.splitEntry bytes).1 (OptionMap.splitEntry bytes).2)
partial_fixpoint

/-- `OptionMap::from_raw` (option_map.rs:55-96). -/
def fromRaw (m : Mem) (p : Nat) : Option OptionMap :=
  if p = 0 then some [] else fromRawLoop m p []

/-- Reads `n` pointers at `p`. -/
def ptrs (m : Mem) (p : Nat) : Nat → Option (List Nat)
  | 0     => some []
  | n + 1 => do
    let e ← m.ptr p
    let es ← ptrs m (p + m.width) n
    pure (e :: es)

/-- `slice::from_raw_parts(argv, argc as usize).to_vec()` (io_env.rs:126-129).  `argc` is a C `int`; a
negative one becomes a huge `usize`.  The pointer must be non-NULL and aligned even for an empty slice,
and the slice must not exceed `isize::MAX` bytes. -/
def argvSlice (m : Mem) (argv : Nat) (argc : BitVec 32) : Option (List Nat) :=
  let n := (argc.signExtend (8 * m.width)).toNat
  if argv = 0 ∨ argv % m.width ≠ 0 then none
  else if m.width * n > m.isizeMax then none
  else ptrs m argv n

/-- `cmdline` (io_env.rs:131-134). -/
def cmdline (m : Mem) (argv : Nat) (argc : BitVec 32) : Option (List Bytes) := do
  let es ← argvSlice m argv argc
  es.mapM (cstr m)

/-- The arguments of the C `open` callback (core.rs:131-143), as they arrive. -/
structure RawArgs where
  version       : BitVec 32
  hasPrintf     : Bool
  settings      : Nat
  userInfo      : Nat
  commandInfo   : Nat
  argc          : BitVec 32
  argv          : Nat
  userEnv       : Nat
  pluginOptions : Nat
  deriving DecidableEq, Repr

/-- `IoEnv::new` (io_env.rs:103-156), reading from memory.  Inner `none`: the code panicked. -/
def newEnv (rt : Rt) (m : Mem) (a : RawArgs) : Option (Option (Except PluginError IoEnv)) :=
  match IoEnv.checkVersion a.version with
  | .error e => some (some (.error e))
  | .ok version => do
    let cmdline ← cmdline m a.argv a.argc
    let settings ← fromRaw m a.settings
    match Settings.tryFrom rt.parseIp settings with
    | none => pure none
    | some (.error e) => pure (some (.error e))
    | some (.ok settings) =>
      let userInfo ← fromRaw m a.userInfo
      match UserInfo.tryFrom userInfo with
      | .error e => pure (some (.error e))
      | .ok userInfo =>
        let commandInfo ← fromRaw m a.commandInfo
        let userEnv ← fromRaw m a.userEnv
        let pluginOptions ← fromRaw m a.pluginOptions
        pure (some (.ok {
          apiVersion    := version
          cmdline       := cmdline
          settings      := settings
          userInfo      := userInfo
          commandInfo   := CommandInfo.tryFrom rt.euid rt.egid commandInfo
          userEnv       := userEnv
          pluginOptions := pluginOptions
          hasPrintf     := a.hasPrintf }))

/-- The environment with error reporting (core.rs:147-172), as `Core.makeEnv`. -/
def makeEnv (hasPrintf : Bool) (env : Option (Except PluginError IoEnv)) : M (Except Int IoEnv) := do
  match ← M.ofOption env with
  | .ok env => pure (.ok env)
  | .error e =>
    let _ ← (PrintFacility.stderr hasPrintf).writeError e.display none
    pure (.error Core.OPEN_DENY)

/-- The `open` callback (core.rs:131-189) on raw arguments: as `Core.open`, but with the environment read
from memory. -/
def «open» (rt : Rt) (m : Mem) (a : RawArgs) (st : State) : Option (M (Int × State)) := do
  let env ← newEnv rt m a
  pure (do
    match ← M.catchUnwind (makeEnv a.hasPrintf env) with
    | none => pure (Core.OPEN_DENY, st)
    | some (.error status) => pure (status, st)
    | some (.ok env) =>
      let env := st.env.getD env
      let st : State := { st with env := some env }
      match ← M.catchUnwind (Core.makePlugin rt a.hasPrintf env) with
      | none => pure (Core.OPEN_DENY, st)
      | some (.error status) => pure (status, st)
      | some (.ok p) =>
        match st.plugin with
        | none   => pure (Core.OPEN_OK, { st with plugin := some p })
        | some _ =>
          p.drop
          pure (Core.OPEN_OK, st))

/-- Reads `n` bytes at `p`. -/
def bytes (m : Mem) (p : Nat) : Nat → Option Bytes
  | 0     => some []
  | n + 1 => do
    let b ← m.byte p
    let bs ← bytes m (p + 1) n
    pure (b :: bs)

/-- `slice::from_raw_parts(buf.cast(), len as _)` (e.g. core.rs:226-229); `len` is a C `unsigned int`;
on 64-bit targets the slice is never too long. -/
def bufSlice (m : Mem) (buf : Nat) (len : BitVec 32) : Option Bytes :=
  if buf = 0 then none
  else if len.toNat > m.isizeMax then none
  else bytes m buf len.toNat

/-- The `log_*` callbacks (core.rs:213-340) on raw arguments.  The buffer is looked at only if there is a
session and the hint of the facility is set. -/
def log (rt : Rt) (m : Mem) (f : Facility) (buf : Nat) (len : BitVec 32) (st : State) : Option (M Int) :=
  match st.env, st.plugin with
  | some env, some plugin =>
    if !Core.hint env.commandInfo f then some (pure Core.LOG_OK)
    else do
      let slice ← bufSlice m buf len
      pure (do
        let r ← M.catchUnwind (do Core.finish env (← Core.handler rt plugin slice f))
        pure (r.getD Core.LOG_DENY))
  | _, _ => some (pure Core.LOG_DENY)

end SudoPair.Ffi
