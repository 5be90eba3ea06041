import Verif.Spec.Fs
/-
The approval socket among other processes: the directory of the socket, the socket file, who has connected to
it, and what the plugin's process and any other process may do to them.  Other processes act at any time between
the interactions of the plugin with the system, as far as POSIX permissions let them.

Simplifications: the directory is always the same (nobody who is not trusted can replace it or one of its
ancestors); other files are not tracked; no ACLs, and no capabilities other than those of uid 0.
-/
namespace SudoPair.Spec

/-- What is at the path of the socket: nothing, the socket that the plugin's process has bound there, or any
other file. -/
inductive Slot where
  | empty | ours | foreign
  deriving DecidableEq, Repr

/-- The directory's owner, group and permissions; the umask of the plugin's process; what is at the path; the
socket that the process has bound last, wherever it is, with the processes that have connected to it and not yet
been accepted; and the descriptor on which the plugin listens to it. -/
structure World where
  dirOwner : Nat
  dirGroup : Nat
  dirMode  : Nat
  umask    : Nat
  slot     : Slot
  sock     : Option Node
  queue    : List Cred
  listener : Option Nat
  deriving DecidableEq, Repr

/-- What other processes can do. -/
inductive Deed where
  /-- Connect to the socket, by whatever name. -/
  | connect
  /-- Change the permissions, the group, or the owner of the socket. -/
  | chmodSocket (mode : Nat)
  | chgrpSocket (group : Nat)
  | chownSocket (owner : Nat)
  /-- Change the permissions or the owner of the directory. -/
  | chmodDir (mode : Nat)
  | chownDir (owner group : Nat)
  /-- Create, remove, rename or link files in the directory so that the path now leads to something else. -/
  | relink (s : Slot)
  deriving DecidableEq, Repr

/-- Anything but connecting. -/
def Deed.Meddles : Deed → Prop
  | .connect => False
  | _ => True

/-- Write permission for a process that is not the superuser. -/
def Node.connects (n : Node) (c : Cred) : Bool :=
  if c.uid = n.owner then n.mode &&& 0o200 ≠ 0
  else if n.group ∈ c.groups then n.mode &&& 0o020 ≠ 0
  else n.mode &&& 0o002 ≠ 0

/-- What POSIX permits a process. -/
def World.may (w : World) (c : Cred) : Deed → Bool
  | .connect => w.sock.any fun n => c.uid = 0 || n.connects c
  | .chmodSocket _ => c.uid = 0 || w.sock.any fun n => n.owner = c.uid
  | .chgrpSocket g => c.uid = 0 || w.sock.any fun n => n.owner = c.uid && decide (g ∈ c.groups)
  | .chownSocket _ => c.uid = 0
  | .chmodDir _ => c.uid = 0 || c.uid = w.dirOwner
  | .chownDir _ _ => c.uid = 0
  | .relink _ => c.uid = 0 || (⟨w.dirOwner, w.dirGroup, w.dirMode⟩ : Node).connects c

/-- What it does. -/
def World.act (w : World) (c : Cred) : Deed → World
  | .connect => { w with queue := w.queue ++ [c] }
  | .chmodSocket m => { w with sock := w.sock.map fun n => { n with mode := m } }
  | .chgrpSocket g => { w with sock := w.sock.map fun n => { n with group := g } }
  | .chownSocket u => { w with sock := w.sock.map fun n => { n with owner := u } }
  | .chmodDir m => { w with dirMode := m }
  | .chownDir u g => { w with dirOwner := u, dirGroup := g }
  | .relink s => { w with slot := s }

/-- Where it happens: the names of the directory, the path of the socket, the effective uid of the plugin's
process, and the group that new files in the directory get. -/
structure Site where
  isDir : Bytes → Bool
  path  : Bytes
  euid  : Nat
  grp   : Nat

/-- The effect of an interaction of the plugin's process with the system; `none` if the reply is not a true one.
Any call may fail. -/
def Site.own (S : Site) (w : World) : Ev → Option World
  | ⟨.stat d, some st⟩ =>
    if S.isDir d ∧ ¬ (st.uid = w.dirOwner ∧ st.mode &&& 0o777 = w.dirMode &&& 0o777) then none else some w
  | ⟨.umask m, old⟩ => if old = w.umask then some { w with umask := m &&& 0o777 } else none
  | ⟨.removeFile p, ok⟩ => some (if p = S.path ∧ ok = true then { w with slot := .empty } else w)
  | ⟨.bind p, .bound fd⟩ =>
    if p ≠ S.path then some { w with sock := none, queue := [], listener := some fd }
    else if w.slot = .empty then
      some { w with
        slot := .ours, sock := some ⟨S.euid, S.grp, 0o777 ^^^ (w.umask &&& 0o777)⟩, queue := []
        listener := some fd }
    else none
  | ⟨.bind p, .failLeft⟩ =>
    if p ≠ S.path then some w
    else if w.slot = .empty then
      some { w with
        slot := .ours, sock := some ⟨S.euid, S.grp, 0o777 ^^^ (w.umask &&& 0o777)⟩, queue := []
        listener := none }
    else none
  | ⟨.chown p u g, ok⟩ =>
    some (if p = S.path ∧ ok = true ∧ w.slot = .ours then
      { w with sock := w.sock.map fun n =>
          { n with owner := if u = noId then n.owner else u, group := if g = noId then n.group else g } }
    else w)
  | ⟨.chmod p m, ok⟩ =>
    some (if p = S.path ∧ ok = true ∧ w.slot = .ours then
      { w with sock := w.sock.map fun n => { n with mode := m } }
    else w)
  | ⟨.accept fd, some conn⟩ =>
    if w.listener = some fd then
      match w.queue with
      | [] => none
      | c :: q => if c = conn.peer then some { w with queue := q } else none
    else none
  | _ => some w

/-- One event: an interaction of the plugin's process, or an action of another process. -/
abbrev Happening := Ev ⊕ (Cred × Deed)

/-- The effect of one event; `none` if it is impossible. -/
def Site.happens (S : Site) (w : World) : Happening → Option World
  | .inl e => S.own w e
  | .inr (c, a) => if w.may c a then some (w.act c a) else none

/-- The effect of many. -/
def Site.run (S : Site) (w : World) : List Happening → Option World
  | [] => some w
  | x :: l => (S.happens w x).bind fun w' => S.run w' l

/-- The interactions of the plugin's process among the events, and the actions of the others. -/
def owns (l : List Happening) : Hist := l.filterMap fun | .inl e => some e | .inr _ => none
def others (l : List Happening) : List (Cred × Deed) := l.filterMap fun | .inl _ => none | .inr x => some x

end SudoPair.Spec
