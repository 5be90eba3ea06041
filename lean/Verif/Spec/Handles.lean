import Verif.Model.Handles
/-
Correct use of descriptors (C78), stated over the trace alone: which descriptors of the plugin are open, and what may
be done with each.
-/
namespace SudoPair.Handles

/-- An open descriptor: a listening socket, a connection, a connection that has been shut down, a terminal. -/
inductive Handle where
  | listening (fd : Nat)
  | connected (fd : Nat)
  | ended (fd : Nat)
  | terminal
  deriving DecidableEq, Repr

/-- Remove one copy of `x`; `none` if there is none. -/
def take (x : Handle) (l : List Handle) : Option (List Handle) := if x ∈ l then some (l.erase x) else none

/-- One more open descriptor, if fewer than `limit` are open. -/
def add (limit : Nat) (x : Handle) (l : List Handle) : Option (List Handle) :=
  if l.length < limit then some (x :: l) else none

/-- `l` is unchanged, provided `x` is open. -/
def need (x : Handle) (l : List Handle) : Option (List Handle) := if x ∈ l then some l else none

/-- The open descriptors after a step; `none` if the step may not be done.  A socket may only be waited on, accepted
from, written to, read from or shut down while it is open and of the right kind; a connection may be shut down
again, but not be used after that nor closed before that; only what is open can be closed. -/
def after (limit : Nat) (l : List Handle) : Step → Option (List Handle)
  | .sys ⟨.bind _, .bound fd⟩     => add limit (.listening fd) l
  | .sys ⟨.select fd, _⟩          => need (.listening fd) l
  | .sys ⟨.accept fd, none⟩       => need (.listening fd) l
  | .sys ⟨.accept fd, some c⟩     => (need (.listening fd) l).bind (add limit (.connected c.fd))
  | .sys ⟨.sockWrite fd _, _⟩     => need (.connected fd) l
  | .sys ⟨.sockRead fd _, _⟩      => need (.connected fd) l
  | .sys ⟨.shutdown fd, _⟩        =>
    if .ended fd ∈ l then some l else (take (.connected fd) l).map (.ended fd :: ·)
  | .sys ⟨.ttyOpen _, true⟩       => add limit .terminal l
  | .sys ⟨.ttyWrite _, _⟩         => need .terminal l
  | .sys _                        => some l
  | .closeListener fd             => take (.listening fd) l
  | .closeStream fd               => take (.ended fd) l
  | .closeTty                     => take .terminal l

/-- The open descriptors after a trace; `none` if some step may not be done. -/
def play (limit : Nat) : List Handle → List Step → Option (List Handle)
  | l, []     => some l
  | l, x :: t => (after limit l x).bind (play limit · t)

end SudoPair.Handles
