import Verif.Spec.Mirror
import Verif.Spec.Frontend
/-
Where the data of a session may go.
-/
namespace SudoPair.Spec

/-- What the plugin may tell the invoking user during a session: these texts, in pieces. -/
def sessionMessages : List Bytes :=
  [b! "\n", b! "sudo_pair: ", b! "pair ended the session", b! "redirection of stdin to paired sessions is prohibited"]

/-- Interactions during a session that give nothing away: the handler of Ctrl-C is changed; pieces of `data` are written
to the connection `fd` with the pair; one of the fixed messages, or the rest of one, is shown as an error message.  No
files, no other connections, and nothing is read. -/
def Discreet (fd : Option Nat) (data : Bytes) : Sys → Prop
  | .sigGet          => True
  | .sigSet _        => True
  | .sockWrite g buf => fd = some g ∧ buf <:+ data
  | .printf level t  => level = 3 ∧ ∃ m ∈ sessionMessages, t <:+ m
  | _                => False

/-- `v` is what follows an interaction of a running session that was made during the callback `c`: further interactions
of the callback, and then either `c` passes what it was given on to the user, or the session ends. -/
def During (c : Core.Call) (v : List Act) : Prop :=
  (∃ (w : Hist) (v' : List Act), v = w.map .sys ++ .pass c :: v') ∨ ∃ w : Hist, v = w.map .sys ++ [.stop]

end SudoPair.Spec
