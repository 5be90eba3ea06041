import Verif.Model.Version
import Verif.Model.Bytes
/-
The approval script (sample/bin/sudo_approve) and the example plugin (examples/raw_plugin_api).
-/
namespace SudoPair

namespace Approve

/-- The commands that `sudo_approve` runs, `[`/`test` included (sample/bin/sudo_approve:25-110). -/
inductive Cmd where
  /-- a command substitution inside a text that bash evaluates as an arithmetic expression -/
  | code (text : Bytes)
  /-- `id -u` (line 59) -/
  | idU
  /-- `stat -c '%u' path` (line 65) -/
  | statUid (path : Bytes)
  /-- `stat -c '%g' path` (line 66) -/
  | statGid (path : Bytes)
  /-- `getent passwd uid | cut -d: -f1` (line 70) -/
  | userName (uid : Int)
  /-- `getent group gid | cut -d: -f1` (line 71) -/
  | groupName (gid : Int)
  /-- `stat -c '%a' path` (line 72) -/
  | statMode (path : Bytes)
  /-- `[ -w path ]` (line 95) -/
  | testW (path : Bytes)
  /-- `stty -g` (line 30) -/
  | sttyGet
  /-- `stty cbreak -echo` (line 35) -/
  | sttyRaw
  /-- `stty intr "^D"` (line 38) -/
  | sttyIntr
  /-- `clear` (line 40) -/
  | clear
  /-- `socat STDIO unix-connect:path` (line 43) -/
  | socat (path : Bytes)
  /-- `stty <saved settings>`, run by the `EXIT` trap (line 30) -/
  | sttyRestore
  /-- `sudo -u user $0 uid pid` (line 98) -/
  | sudoUser (user : Bytes) (uid pid : Int)
  /-- `sudo -g group $0 uid pid` (line 100) -/
  | sudoGroup (group : Bytes) (uid pid : Int)
  /-- "Users may not approve their own sudo session" (line 87) -/
  | sayOwn
  /-- "... neither user- nor group-writable" (line 102) -/
  | sayMode
  /-- the usage message (line 47) -/
  | usage
  deriving DecidableEq, Repr

/-- The variables of the shell by name, those of the environment included.  Scopes and attributes (`-r`) are left out:
what an assignment in an expression does is up to `Arith`. -/
abbrev Vars := Bytes → Option Bytes

/-- Set a variable. -/
def Vars.set (vars : Vars) (name value : Bytes) : Vars := fun n => if n = name then some value else vars n

/-- How bash evaluates a text as an arithmetic expression when it assigns to a variable declared with
`-i`: the command substitutions it runs on the way (in array subscripts), and, if there is no error, the value
and the variables afterwards (an expression can contain assignments).  Left open: the theorems hold for every
such function, or for those that read decimal numbers as bash does (`ReadsDecimals`). -/
abbrev Arith := Vars → Bytes → List Bytes × Option (Int × Vars)

/-- The answers of the commands: standard output without trailing newlines if the command succeeds,
`none` if it fails.  One run of the script runs no command twice.  That an expression may change `PATH`, and so
which program a command is, shows in nothing but these answers. -/
abbrev Answers := Cmd → Option Bytes

/-- Run a command and go on with its output; `errexit` (line 17, with `pipefail`, line 18) ends the
script if it fails. -/
def cmd (ans : Answers) (c : Cmd) (k : Bytes → List Cmd) : List Cmd :=
  c :: match ans c with
    | none     => []
    | some out => k out

/-- Assign a text to the variable `name`, declared with `-i` (lines 53, 54, 58-59, 64-66). -/
def assign (arith : Arith) (vars : Vars) (name text : Bytes) (k : Int → Vars → List Cmd) : List Cmd :=
  (arith vars text).1.map .code ++ match (arith vars text).2 with
    | none            => []
    | some (i, vars') => k i (vars'.set name (decInt i))

/-- `8#text` (lines 97, 99): an octal number. -/
def octal (text : Bytes) : Option Nat :=
  if text ≠ [] ∧ text.all (fun b => 48 ≤ b ∧ b ≤ 55) then
    some (text.foldl (fun a b => a * 8 + (b.toNat - 48)) 0)
  else none

/-- `SUDO_SOCKET_PATH` (line 23). -/
def socketDir : Bytes := b! "/var/run/sudo_pair"

/-- `socket` (line 62). -/
def socket (dir : Bytes) (uid pid : Int) : Bytes :=
  dir ++ b! "/" ++ decInt uid ++ b! "." ++ decInt pid ++ b! ".sock"

/-- `pair` (lines 25-44).  Neither a failure of `stty -g` nor one of the trap matters. -/
def pair (ans : Answers) (path : Bytes) : List Cmd :=
  .sttyGet ::
  (cmd ans .sttyRaw fun _ => cmd ans .sttyIntr fun _ => cmd ans .clear fun _ => [.socat path]) ++
  [.sttyRestore]

/-- `${SUDO_UID:-$(id -u)}` (line 59), where `sudoUid` is the variable `SUDO_UID`; an empty
value counts as unset. -/
def realUid (ans : Answers) (sudoUid : Option Bytes) (k : Bytes → List Cmd) : List Cmd :=
  if sudoUid.getD [] = [] then cmd ans .idU k else k (sudoUid.getD [])

/-- `main` (lines 51-105): the commands run, in order. -/
def main (arith : Arith) (ans : Answers) (vars : Vars) (dir uidArg pidArg : Bytes) : List Cmd :=
  assign arith vars (b! "uid") uidArg fun uid vars =>
  assign arith vars (b! "pid") pidArg fun pid vars =>
  realUid ans (vars (b! "SUDO_UID")) fun ruidText =>
  assign arith vars (b! "ruid") ruidText fun ruid vars =>
  cmd ans (.statUid (socket dir uid pid)) fun uidText =>
  assign arith vars (b! "socket_uid") uidText fun socketUid vars =>
  cmd ans (.statGid (socket dir uid pid)) fun gidText =>
  assign arith vars (b! "socket_gid") gidText fun socketGid _ =>
  cmd ans (.userName socketUid) fun user =>
  cmd ans (.groupName socketGid) fun group =>
  cmd ans (.statMode (socket dir uid pid)) fun modeText =>
  if uid = ruid then [.sayOwn]
  else .testW (socket dir uid pid) ::
    if (ans (.testW (socket dir uid pid))).isSome then pair ans (socket dir uid pid)
    else match octal modeText with
      | none => []
      | some mode =>
        if mode &&& 0o200 ≠ 0 then [.sudoUser user uid pid]
        else if mode &&& 0o020 ≠ 0 then [.sudoGroup group uid pid]
        else [.sayMode]

/-- The script (lines 46-49, 107-110) with its environment and its arguments. -/
def script (arith : Arith) (ans : Answers) (vars : Vars) : List Bytes → List Cmd
  | [uid, pid] => main arith ans vars socketDir uid pid
  | _          => [.usage]

end Approve

namespace DenyEverything

/-- The three static variables (examples/raw_plugin_api/src/lib.rs:77-79); function pointers are
modelled by their presence. -/
structure State where
  conv    : Bool
  print   : Bool
  version : Option (BitVec 32)
  deriving DecidableEq, Repr

/-- Calls on the plugin. -/
inductive Call where
  | «open» (version : BitVec 32) (conv print : Bool)
  | check
  | showVersion
  deriving DecidableEq, Repr

/-- What a call does: return value, text printed, whether `*errstr` was assigned. -/
structure Reply where
  ret     : Int
  printed : Option Bytes
  errstr  : Bool
  deriving DecidableEq, Repr

def init : State := ⟨false, false, none⟩

/-- The callbacks (examples/raw_plugin_api/src/lib.rs:84-134). -/
def step : Call → State → Reply × State
  | .open v conv print, _ => (⟨1, none, false⟩, ⟨conv, print, some v⟩)
  | .check, st =>
    if !st.print then (⟨0, none, false⟩, st)
    else
      let new : Bool := match st.version with
        | none   => false
        | some v => mkVersion 1 17 ≤ v
      (⟨0, some (b! "deny_everything: denied\n"), new⟩, st)
  | .showVersion, st =>
    if !st.print then (⟨0, none, false⟩, st)
    else (⟨1, some (b! "Deny Everything version 1.0\n"), false⟩, st)

def run : List Call → State → List Reply × State
  | [],      st => ([], st)
  | c :: cs, st =>
    let (r, st) := step c st
    let (rs, st) := run cs st
    (r :: rs, st)

end DenyEverything
end SudoPair
