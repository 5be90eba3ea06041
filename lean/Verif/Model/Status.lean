import Verif.Model.Extras
/-
The exit status of the approval script (sample/bin/sudo_approve).  A copy of Model/Extras in which the commands have
exit statuses; C80_commands ties the two.
-/
namespace SudoPair.Approve

/-- The exit status of each command that fails. -/
abbrev Codes := Cmd → Nat

namespace Full

/-- The commands run, in order, and the exit status of the script. -/
abbrev Run := List Cmd × Nat

/-- Run a command and go on with its output; if it fails, the script ends with its status (`errexit`, line 17, with
`pipefail`, line 18). -/
def cmd (ans : Answers) (codes : Codes) (c : Cmd) (k : Bytes → Run) : Run :=
  match ans c with
  | none     => ([c], codes c)
  | some out => (c :: (k out).1, (k out).2)

/-- The script ends here with status `n`. -/
def done (n : Nat) : Run := ([], n)

/-- Assign a text to the variable `name`, declared with `-i`; an error in the expression ends the script with
status 1. -/
def assign (arith : Arith) (vars : Vars) (name text : Bytes) (k : Int → Vars → Run) : Run :=
  match (arith vars text).2 with
  | none            => ((arith vars text).1.map .code, 1)
  | some (i, vars') =>
    ((arith vars text).1.map .code ++ (k i (vars'.set name (decInt i))).1, (k i (vars'.set name (decInt i))).2)

/-- `pair` (lines 25-44).  Since `errexit` is on, the trap's status counts if the trap fails. -/
def pair (ans : Answers) (codes : Codes) (path : Bytes) : Run :=
  let run := cmd ans codes .sttyRaw fun _ => cmd ans codes .sttyIntr fun _ => cmd ans codes .clear fun _ =>
    cmd ans codes (.socat path) fun _ => done 0
  (.sttyGet :: run.1 ++ [.sttyRestore], if (ans .sttyRestore).isSome then run.2 else codes .sttyRestore)

/-- `${SUDO_UID:-$(id -u)}` (line 59). -/
def realUid (ans : Answers) (codes : Codes) (sudoUid : Option Bytes) (k : Bytes → Run) : Run :=
  if sudoUid.getD [] = [] then cmd ans codes .idU k else k (sudoUid.getD [])

/-- `main` (lines 51-105). -/
def main (arith : Arith) (ans : Answers) (codes : Codes) (vars : Vars) (dir uidArg pidArg : Bytes) : Run :=
  assign arith vars (b! "uid") uidArg fun uid vars =>
  assign arith vars (b! "pid") pidArg fun pid vars =>
  realUid ans codes (vars (b! "SUDO_UID")) fun ruidText =>
  assign arith vars (b! "ruid") ruidText fun ruid vars =>
  cmd ans codes (.statUid (socket dir uid pid)) fun uidText =>
  assign arith vars (b! "socket_uid") uidText fun socketUid vars =>
  cmd ans codes (.statGid (socket dir uid pid)) fun gidText =>
  assign arith vars (b! "socket_gid") gidText fun socketGid _ =>
  cmd ans codes (.userName socketUid) fun user =>
  cmd ans codes (.groupName socketGid) fun group =>
  cmd ans codes (.statMode (socket dir uid pid)) fun modeText =>
  if uid = ruid then cmd ans codes .sayOwn fun _ => done 1      -- lines 86-89
  else
    let run : Run :=
      if (ans (.testW (socket dir uid pid))).isSome then pair ans codes (socket dir uid pid)
      else match octal modeText with
        | none => done 1
        | some mode =>
          if mode &&& 0o200 ≠ 0 then cmd ans codes (.sudoUser user uid pid) fun _ => done 0
          else if mode &&& 0o020 ≠ 0 then cmd ans codes (.sudoGroup group uid pid) fun _ => done 0
          else cmd ans codes .sayMode fun _ => done 2           -- lines 101-104
    (.testW (socket dir uid pid) :: run.1, run.2)

/-- The script (lines 46-49, 107-110). -/
def script (arith : Arith) (ans : Answers) (codes : Codes) (vars : Vars) : List Bytes → Run
  | [uid, pid] => main arith ans codes vars socketDir uid pid
  | _          => cmd ans codes .usage fun _ => done 1

end Full
end SudoPair.Approve
