import Verif.Model.Table
/-
What the C header include/sudo_plugin.h prescribes: where sudo looks for each member.
-/
namespace SudoPair.Header

/-- The function members of `struct io_plugin` (sudo_plugin-sys/include/sudo_plugin.h:188-212), in order. -/
def ioMembers : List String :=
  ["open", "close", "show_version", "log_ttyin", "log_ttyout", "log_stdin", "log_stdout", "log_stderr",
   "register_hooks", "deregister_hooks", "change_winsize", "log_suspend", "event_alloc"]

/-- The function members of `struct approval_plugin` (sudo_plugin.h:247-261), in order. -/
def approvalMembers : List String := ["open", "close", "check", "show_version"]

/-- The function members of `struct policy_plugin` (sudo_plugin.h:163-185), in order, and the Rust members they
are to be. -/
def policyMembers {φ : Type} (t : Table.PolicyPlugin φ) : List (String × Option φ) :=
  [("open", t.open), ("close", t.close), ("show_version", t.showVersion), ("check_policy", t.checkPolicy),
   ("list", t.list), ("validate", t.validate), ("invalidate", t.invalidate), ("init_session", t.initSession),
   ("register_hooks", t.registerHooks), ("deregister_hooks", t.deregisterHooks), ("event_alloc", t.eventAlloc)]

/-- The same for `struct io_plugin`, -/
def ioFields {φ : Type} (t : Table.IoPlugin φ) : List (String × Option φ) :=
  [("open", t.open), ("close", t.close), ("show_version", t.showVersion), ("log_ttyin", t.logTtyin),
   ("log_ttyout", t.logTtyout), ("log_stdin", t.logStdin), ("log_stdout", t.logStdout), ("log_stderr", t.logStderr),
   ("register_hooks", t.registerHooks), ("deregister_hooks", t.deregisterHooks),
   ("change_winsize", t.changeWinsize), ("log_suspend", t.logSuspend), ("event_alloc", t.eventAlloc)]

/-- for `struct audit_plugin` (sudo_plugin.h:221-244) -/
def auditMembers {φ : Type} (t : Table.AuditPlugin φ) : List (String × Option φ) :=
  [("open", t.open), ("close", t.close), ("accept", t.accept), ("reject", t.reject), ("error", t.error),
   ("show_version", t.showVersion), ("register_hooks", t.registerHooks), ("deregister_hooks", t.deregisterHooks),
   ("event_alloc", t.eventAlloc)]

/-- and for `struct approval_plugin`. -/
def approvalFields {φ : Type} (t : Table.ApprovalPlugin φ) : List (String × Option φ) :=
  [("open", t.open), ("close", t.close), ("check", t.check), ("show_version", t.showVersion)]

/-- Where a C compiler whose pointers have `w` bytes puts the `k`-th function member: after `type` and
`version`, which take eight bytes. -/
def slot (w k : Nat) : Nat := 8 + k * w

/-- The member sudo calls to make each callback. -/
def member : Framework.Call → String
  | .open _            => "open"
  | .close _ _         => "close"
  | .showVersion _     => "show_version"
  | .log .ttyin _      => "log_ttyin"
  | .log .ttyout _     => "log_ttyout"
  | .log .stdin _      => "log_stdin"
  | .log .stdout _     => "log_stdout"
  | .log .stderr _     => "log_stderr"
  | .changeWinsize _ _ => "change_winsize"

/-- The member sudo calls on an approval plugin. -/
def approvalMember : DenyEverything.Call → String
  | .open _ _ _  => "open"
  | .check       => "check"
  | .showVersion => "show_version"

/-- What sudo passes when it makes a callback. -/
def args : Framework.Call → Table.Args
  | .open a            => .open a
  | .close x e         => .status x e
  | .showVersion v     => .verbose v
  | .log _ buf         => .buffer buf
  | .changeWinsize l c => .size l c

/-- `t` has `c` at offset `off`, and nowhere else does `t` mention that offset. -/
def At {α : Type} (t : List (Nat × α)) (off : Nat) (c : α) : Prop :=
  (off, c) ∈ t ∧ ∀ c', (off, c') ∈ t → c' = c

/-- C's rule for the members of a structure from offset `off` on, for pointers of `w` bytes and members that are aligned to
their size: each is at the first offset behind the one before it that is a multiple of its size. -/
inductive Laid {φ : Type} (w : Nat) : Nat → List (Nat × Table.Cell φ) → Prop
  | nil {off} : Laid w off []
  | cons {off o c t} : off ≤ o → c.size w ∣ o → (∀ n, off ≤ n → c.size w ∣ n → o ≤ n) → Laid w (o + c.size w) t →
      Laid w off ((o, c) :: t)

/-- What sudo, whose pointers have `w` bytes, finds when it looks into memory laid out as `t`: type, version and a
function (or null) for each member. -/
def Finds {φ : Type} (w : Nat) (t : List (Nat × Table.Cell φ)) (type_ version : BitVec 32)
    (members : List (String × Option φ)) : Prop :=
  At t 0 (.uint type_) ∧ At t 4 (.uint version) ∧
  (∀ (k : Nat) (name : String) (f : Option φ), members[k]? = some (name, f) → At t (slot w k) (match f with
    | some f => .fn f
    | none => .null)) ∧
  t.length = 2 + members.length

end SudoPair.Header
