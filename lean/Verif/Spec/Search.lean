import Verif.Spec.World
/-
Reaching the approval socket through its directory: besides the write permission for the socket, `connect(2)` needs
the search permission for the directory (path_resolution(7)).

Simplifications: the directories above are open to everybody, and the socket has no other name.
-/
namespace SudoPair.Spec

/-- Whether a process may look up names in the directory: the superuser may; others need the execute permission of
the first class (owner, group, others) they belong to. -/
def World.searches (w : World) (c : Cred) : Bool :=
  c.uid = 0 ||
    if c.uid = w.dirOwner then w.dirMode &&& 0o100 ≠ 0
    else if w.dirGroup ∈ c.groups then w.dirMode &&& 0o010 ≠ 0
    else w.dirMode &&& 0o001 ≠ 0

/-- In this run, whoever connects may look up the socket at that time. -/
def Site.through (S : Site) (w : World) : List Happening → Bool
  | [] => true
  | x :: l =>
    (match x with
      | .inr (c, .connect) => w.searches c
      | _ => true) &&
    match S.happens w x with
      | none => true
      | some w' => S.through w' l

end SudoPair.Spec
