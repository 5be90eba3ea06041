import Verif.Spec.World
/-
Several sudo sessions at the same time.  One of them is watched, as in Spec/World; the others run the same plugin in
processes of their own, and act on the same file system.

Simplifications: those of Spec/World; the files of the other sessions are not tracked.
-/
namespace SudoPair.Spec

/-- What a call of another plugin process does to the socket and the directory of the watched one.  `names` tells
which paths lead to the place of the watched socket. -/
def Site.theirs (S : Site) (names : Bytes → Bool) (w : World) : Ev → World
  | ⟨.removeFile p, true⟩ => if names p then { w with slot := .empty } else w
  | ⟨.bind p, .bound _⟩   => if names p then { w with slot := .foreign } else w
  | ⟨.bind p, .failLeft⟩  => if names p then { w with slot := .foreign } else w
  | ⟨.chown p u g, true⟩  =>
    if S.isDir p then { w with
      dirOwner := if u = noId then w.dirOwner else u, dirGroup := if g = noId then w.dirGroup else g }
    else if names p ∧ w.slot = .ours then
      { w with sock := w.sock.map fun n =>
          { n with owner := if u = noId then n.owner else u, group := if g = noId then n.group else g } }
    else w
  | ⟨.chmod p m, true⟩    =>
    if S.isDir p then { w with dirMode := m }
    else if names p ∧ w.slot = .ours then { w with sock := w.sock.map fun n => { n with mode := m } }
    else w
  | _ => w

/-- One event: of the watched process or of a process without the plugin, as in Spec/World; or of the plugin in
another process, which has a number. -/
abbrev Bustle := Happening ⊕ (Nat × Ev)

/-- The effect of many. -/
def Site.bustles (S : Site) (names : Bytes → Bool) (w : World) : List Bustle → Option World
  | [] => some w
  | .inl x :: l => (S.happens w x).bind fun w' => S.bustles names w' l
  | .inr (_, e) :: l => S.bustles names (S.theirs names w e) l

/-- The events without those of the other plugin processes, and the events of one of those. -/
def apart (l : List Bustle) : List Happening := l.filterMap fun | .inl x => some x | .inr _ => none
def ofProcess (i : Nat) (l : List Bustle) : Hist :=
  l.filterMap fun | .inl _ => none | .inr (j, e) => if j = i then some e else none

end SudoPair.Spec
