import Verif.Model.Framework
import Verif.Model.Version
import Verif.Model.Extras
/-
The tables of callbacks that sudo finds by symbol name in the shared objects: `struct io_plugin` and
`struct approval_plugin` of sudo_plugin-sys, the macro `sudo_io_plugin!` and the example plugin; and the two other
kinds of tables, which sudo_plugin-sys offers but this project does not use.
-/
namespace SudoPair.Table

/-- What a member of one of the structures holds: an unsigned integer, a function or a null pointer. `φ`
names the functions. -/
inductive Cell (φ : Type) where
  | uint (n : BitVec 32)
  | fn (f : φ)
  | null
  deriving DecidableEq, Repr

/-- `Option<unsafe extern "C" fn …>`: `None` is the null pointer. -/
def Cell.ofOption {φ : Type} : Option φ → Cell φ
  | some f => .fn f
  | none   => .null

/-- Size of a member, where `w` is the size of a pointer. -/
def Cell.size {φ : Type} (w : Nat) : Cell φ → Nat
  | .uint _ => 4
  | .fn _   => w
  | .null   => w

/-- The next multiple of `align`. -/
def roundUp (n align : Nat) : Nat := (n + align - 1) / align * align

/-- `#[repr(C)]`: each member in the order of declaration, at the next offset aligned to its size (integers
and pointers are aligned to their size on the three supported targets; the generated layout tests, e.g.
sudo_plugin-sys/src/bindings/sudo_plugin.x86-64.rs:872-1072). -/
def layout {φ : Type} (w : Nat) : Nat → List (Cell φ) → List (Nat × Cell φ)
  | _,   []      => []
  | off, c :: cs => (roundUp off (c.size w), c) :: layout w (roundUp off (c.size w) + c.size w) cs

/-- `io_plugin` (sudo_plugin-sys/src/bindings/sudo_plugin.x86-64.rs:771-870, and the same members in the
same order in sudo_plugin.x86.rs and sudo_plugin.aarch64.rs). -/
structure IoPlugin (φ : Type) where
  type_           : BitVec 32
  version         : BitVec 32
  «open»          : Option φ
  close           : Option φ
  showVersion     : Option φ
  logTtyin        : Option φ
  logTtyout       : Option φ
  logStdin        : Option φ
  logStdout       : Option φ
  logStderr       : Option φ
  registerHooks   : Option φ
  deregisterHooks : Option φ
  changeWinsize   : Option φ
  logSuspend      : Option φ
  eventAlloc      : Option φ

/-- The members of the structure in the order of declaration. -/
def IoPlugin.cells {φ : Type} (t : IoPlugin φ) : List (Cell φ) :=
  [.uint t.type_, .uint t.version, .ofOption t.open, .ofOption t.close, .ofOption t.showVersion,
   .ofOption t.logTtyin, .ofOption t.logTtyout, .ofOption t.logStdin, .ofOption t.logStdout,
   .ofOption t.logStderr, .ofOption t.registerHooks, .ofOption t.deregisterHooks,
   .ofOption t.changeWinsize, .ofOption t.logSuspend, .ofOption t.eventAlloc]

/-- `io_plugin::empty()` (sudo_plugin-sys/src/lib.rs:239-263). -/
def IoPlugin.empty {φ : Type} : IoPlugin φ :=
  { type_ := 2, version := sudoApiVersion, «open» := none, close := none, showVersion := none,
    logTtyin := none, logTtyout := none, logStdin := none, logStdout := none, logStderr := none,
    registerHooks := none, deregisterHooks := none, changeWinsize := none, logSuspend := none,
    eventAlloc := none }

/-- The `extern "C"` functions of sudo_plugin/src/core.rs. -/
inductive CoreFn where
  | «open» | close | showVersion | logTtyin | logTtyout | logStdin | logStdout | logStderr | changeWinsize
  deriving DecidableEq, Repr

/-- The static that `sudo_io_plugin!` emits (sudo_plugin/src/macros.rs:94-108); for sudo_pair it is the
symbol `sudo_pair` (sudo_pair/src/lib.rs:99). -/
def ioTable : IoPlugin CoreFn :=
  { (IoPlugin.empty : IoPlugin CoreFn) with
    «open»        := some .open
    close         := some .close
    showVersion   := some .showVersion
    logTtyin      := some .logTtyin
    logTtyout     := some .logTtyout
    logStdin      := some .logStdin
    logStdout     := some .logStdout
    logStderr     := some .logStderr
    changeWinsize := some .changeWinsize }

/-- Arguments of a C call, by the parameter list of the callback's type: `open`, `close`, `show_version`, the
five `log_*` and `change_winsize` (the arguments of `open` as the strings they point to, Model/Ffi). -/
inductive Args where
  | «open» (a : OpenArgs)
  | status (exitStatus error : Int)
  | verbose (v : Int)
  | buffer (buf : Bytes)
  | size (lines cols : Nat)

/-- Jumping to one of the functions of core.rs (lines 131, 192, 202, 213, 239, 265, 291, 317, 343); `none`
where the arguments are not those of the function's type. -/
def invoke {σ ε : Type} (P : Framework.Plugin σ ε) (rt : Rt) (f : CoreFn) (args : Args)
    (st : Framework.Slots σ) : Option (M (Int × Framework.Slots σ)) :=
  match f, args with
  | .open,          .open a     => some (Framework.step P rt (.open a) st)
  | .close,         .status x e => some (Framework.step P rt (.close x e) st)
  | .showVersion,   .verbose v  => some (Framework.step P rt (.showVersion v) st)
  | .logTtyin,      .buffer b   => some (Framework.step P rt (.log .ttyin b) st)
  | .logTtyout,     .buffer b   => some (Framework.step P rt (.log .ttyout b) st)
  | .logStdin,      .buffer b   => some (Framework.step P rt (.log .stdin b) st)
  | .logStdout,     .buffer b   => some (Framework.step P rt (.log .stdout b) st)
  | .logStderr,     .buffer b   => some (Framework.step P rt (.log .stderr b) st)
  | .changeWinsize, .size l c   => some (Framework.step P rt (.changeWinsize l c) st)
  | _, _ => none

/-- `approval_plugin` (sudo_plugin-sys/src/bindings/sudo_plugin.x86-64.rs:1306-1337). -/
structure ApprovalPlugin (φ : Type) where
  type_       : BitVec 32
  version     : BitVec 32
  «open»      : Option φ
  close       : Option φ
  check       : Option φ
  showVersion : Option φ

/-- Its members in the order of declaration. -/
def ApprovalPlugin.cells {φ : Type} (t : ApprovalPlugin φ) : List (Cell φ) :=
  [.uint t.type_, .uint t.version, .ofOption t.open, .ofOption t.close, .ofOption t.check,
   .ofOption t.showVersion]

/-- `approval_plugin::empty()` (sudo_plugin-sys/src/lib.rs:287-302). -/
def ApprovalPlugin.empty {φ : Type} : ApprovalPlugin φ :=
  { type_ := 4, version := sudoApiVersion, «open» := none, close := none, check := none,
    showVersion := none }

/-- The functions of examples/raw_plugin_api/src/lib.rs. -/
inductive DenyFn where
  | «open» | check | showVersion
  deriving DecidableEq, Repr

/-- `deny_everything` (examples/raw_plugin_api/src/lib.rs:69-75). -/
def denyTable : ApprovalPlugin DenyFn :=
  { (ApprovalPlugin.empty : ApprovalPlugin DenyFn) with
    «open»      := some .open
    check       := some .check
    showVersion := some .showVersion }

/-- `policy_plugin` (sudo_plugin-sys/src/bindings/sudo_plugin.x86-64.rs:507-590). -/
structure PolicyPlugin (φ : Type) where
  type_           : BitVec 32
  version         : BitVec 32
  «open»          : Option φ
  close           : Option φ
  showVersion     : Option φ
  checkPolicy     : Option φ
  list            : Option φ
  validate        : Option φ
  invalidate      : Option φ
  initSession     : Option φ
  registerHooks   : Option φ
  deregisterHooks : Option φ
  eventAlloc      : Option φ

/-- Its members in the order of declaration. -/
def PolicyPlugin.cells {φ : Type} (t : PolicyPlugin φ) : List (Cell φ) :=
  [.uint t.type_, .uint t.version, .ofOption t.open, .ofOption t.close, .ofOption t.showVersion,
   .ofOption t.checkPolicy, .ofOption t.list, .ofOption t.validate, .ofOption t.invalidate,
   .ofOption t.initSession, .ofOption t.registerHooks, .ofOption t.deregisterHooks, .ofOption t.eventAlloc]

/-- `policy_plugin::empty()` (sudo_plugin-sys/src/lib.rs:215-237). -/
def PolicyPlugin.empty {φ : Type} : PolicyPlugin φ :=
  { type_ := 1, version := sudoApiVersion, «open» := none, close := none, showVersion := none,
    checkPolicy := none, list := none, validate := none, invalidate := none, initSession := none,
    registerHooks := none, deregisterHooks := none, eventAlloc := none }

/-- `audit_plugin` (sudo_plugin-sys/src/bindings/sudo_plugin.x86-64.rs:1075-1153). -/
structure AuditPlugin (φ : Type) where
  type_           : BitVec 32
  version         : BitVec 32
  «open»          : Option φ
  close           : Option φ
  accept          : Option φ
  reject          : Option φ
  error           : Option φ
  showVersion     : Option φ
  registerHooks   : Option φ
  deregisterHooks : Option φ
  eventAlloc      : Option φ

/-- Its members in the order of declaration. -/
def AuditPlugin.cells {φ : Type} (t : AuditPlugin φ) : List (Cell φ) :=
  [.uint t.type_, .uint t.version, .ofOption t.open, .ofOption t.close, .ofOption t.accept,
   .ofOption t.reject, .ofOption t.error, .ofOption t.showVersion, .ofOption t.registerHooks,
   .ofOption t.deregisterHooks, .ofOption t.eventAlloc]

/-- `audit_plugin::empty()` (sudo_plugin-sys/src/lib.rs:265-285). -/
def AuditPlugin.empty {φ : Type} : AuditPlugin φ :=
  { type_ := 3, version := sudoApiVersion, «open» := none, close := none, accept := none, reject := none,
    error := none, showVersion := none, registerHooks := none, deregisterHooks := none, eventAlloc := none }

end SudoPair.Table
