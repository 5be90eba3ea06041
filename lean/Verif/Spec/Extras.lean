import Verif.Model.Extras
import Verif.Spec.Text
/-
Who runs the approval script, and histories of the example plugin.
-/
namespace SudoPair.Spec

/-- An integer of bash. -/
def InRange (i : Int) : Prop := -2 ^ 63 ≤ i ∧ i < 2 ^ 63

/-- Arithmetic is on 64-bit integers, and decimal numbers without superfluous zeros evaluate to
themselves, run nothing and assign nothing. -/
def ReadsDecimals (arith : Approve.Arith) : Prop :=
  (∀ vars text i vars', (arith vars text).2 = some (i, vars') → InRange i) ∧
  ∀ vars i, InRange i → arith vars (decimalInt i) = ([], some (i, vars))

/-- Assigning `text` to the integer variable `name` gives it the value `i` and leaves the variables `after`. -/
def Assigns (arith : Approve.Arith) (before : Approve.Vars) (name text : Bytes) (i : Int) (after : Approve.Vars) : Prop :=
  ∃ vars, (arith before text).2 = some (i, vars) ∧ ∀ n, after n = if n = name then some (decimalInt i) else vars n

/-- Evaluating this text does not change `SUDO_UID`. -/
def SparesSudoUid (arith : Approve.Arith) (text : Bytes) : Prop :=
  ∀ before i after, (arith before text).2 = some (i, after) → after (b! "SUDO_UID") = before (b! "SUDO_UID")

/-- The script is run by user `uid`: either directly, and `SUDO_UID` is not set to anything, or through
sudo, which sets `SUDO_UID`. -/
def RunBy (uid : Nat) (vars : Approve.Vars) (ans : Approve.Answers) : Prop :=
  ((vars (b! "SUDO_UID")).getD [] = [] ∧ ∀ out, ans .idU = some out → out = decimalInt uid) ∨
  vars (b! "SUDO_UID") = some (decimalInt uid)

/-- The script, together with the runs of it that it starts through sudo: the first run has the environment
given, the others whatever sudo sets. -/
inductive Approval (arith : Approve.Arith) : Approve.Vars → Approve.Answers → List Bytes → List Approve.Cmd → Prop
  | last {su ans args} : Approval arith su ans args (Approve.script arith ans su args)
  | again {su ans args user uid pid su' ans' t} :
      (.sudoUser user uid pid ∈ Approve.script arith ans su args ∨ .sudoGroup user uid pid ∈ Approve.script arith ans su args) →
      Approval arith su' ans' [decimalInt uid, decimalInt pid] t →
      Approval arith su ans args (Approve.script arith ans su args ++ t)

/-- The file that the approver's terminal is connected to. -/
def connectsTo : Approve.Cmd → Option Bytes
  | .socat path => some path
  | _ => none

/-- A number in octal, without superfluous zeros, as `stat -c %a` prints the permission bits. -/
def octalText (m : Nat) : Bytes :=
  if m < 8 then [48 + m.toUInt8] else octalText (m / 8) ++ [48 + (m % 8).toUInt8]

/-- In this history of the example plugin, the last `open` gave this API version and, or not, a printf
function. -/
def LastOpen (cs : List DenyEverything.Call) (version : BitVec 32) (print : Bool) : Prop :=
  ∃ before conv after, cs = before ++ .open version conv print :: after ∧ ∀ v c p, .open v c p ∉ after

end SudoPair.Spec
