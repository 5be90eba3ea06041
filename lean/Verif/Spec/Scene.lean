import Verif.Spec.Frontend
import Verif.Spec.Together
/-
Everything at once: sudo's front end (Spec/Frontend) with the plugin, in one process; other processes acting on the
socket and its directory (Spec/World); and other sudo sessions with the plugin (Spec/Together).  All in one order of
time, interleaved in any way.
-/
namespace SudoPair.Spec

/-- One event. -/
inductive Scene where
  /-- of the watched sudo process: sudo itself, or the plugin in it -/
  | act (a : Act)
  /-- of a process without the plugin -/
  | other (c : Cred) (d : Deed)
  /-- of the plugin in another process, which has a number -/
  | session (i : Nat) (e : Ev)

/-- The events of the watched process. -/
def actsOf (l : List Scene) : List Act := l.filterMap fun | .act a => some a | _ => none

/-- The events that concern the socket and its directory. -/
def bustleOf (l : List Scene) : List Bustle := l.filterMap fun
  | .act (.sys e)  => some (.inl (.inl e))
  | .act _         => none
  | .other c d     => some (.inl (.inr (c, d)))
  | .session i e   => some (.inr (i, e))

end SudoPair.Spec
