import Verif.Model.Os
/-
What the operating system does with the approval socket on disk: a small model of POSIX file creation,
ownership and permission checks.  It reads the history of system calls and their replies only.
-/
namespace SudoPair.Spec

/-- `(uid_t)-1` and `(gid_t)-1`: "leave unchanged" for `chown(2)`. -/
def noId : Nat := 4294967295

/-- The socket file: owner, group, permission bits. -/
structure Node where
  owner : Nat
  group : Nat
  mode  : Nat
  deriving DecidableEq, Repr

/-- The process umask, and the socket file at the path of interest, if the process has created one
there and it still exists. -/
structure Fs where
  umask : Nat
  node  : Option Node
  deriving DecidableEq, Repr

/-- The effect of one system interaction.  `path` is the path of interest, `euid` the effective uid of
the process and `grp` the group new files get (the process' group, or that of the directory).  A file
is created with all permissions except those in the umask. -/
def Fs.step (path : Bytes) (euid grp : Nat) (s : Fs) : Ev → Fs
  | ⟨.umask m, _⟩ => { s with umask := m &&& 0o777 }
  | ⟨.bind p, .bound _⟩ =>
      if p = path then { s with node := some ⟨euid, grp, 0o777 ^^^ (s.umask &&& 0o777)⟩ } else s
  | ⟨.bind p, .failLeft⟩ =>
      if p = path then { s with node := some ⟨euid, grp, 0o777 ^^^ (s.umask &&& 0o777)⟩ } else s
  | ⟨.chown p u g, ok⟩ =>
      if p = path ∧ ok = true then
        { s with node := s.node.map fun n =>
            { n with owner := if u = noId then n.owner else u, group := if g = noId then n.group else g } }
      else s
  | ⟨.chmod p m, ok⟩ =>
      if p = path ∧ ok = true then { s with node := s.node.map fun n => { n with mode := m } } else s
  | ⟨.removeFile p, ok⟩ => if p = path ∧ ok = true then { s with node := none } else s
  | _ => s

/-- The state after a history. -/
def Fs.run (path : Bytes) (euid grp : Nat) (s : Fs) (h : Hist) : Fs := h.foldl (Fs.step path euid grp) s

/-- Whether a process that is not the superuser may connect to the socket file: it needs the write
permission of the first class (owner, group, others) it belongs to. -/
def Node.connectable (n : Node) (c : Cred) : Prop :=
  if c.uid = n.owner then n.mode &&& 0o200 ≠ 0
  else if n.group ∈ c.groups then n.mode &&& 0o020 ≠ 0
  else n.mode &&& 0o002 ≠ 0

/-- The replies of `umask(2)` are the previous mask. -/
def UmaskTruth : Nat → Hist → Prop
  | _, [] => True
  | u, ⟨.umask m, r⟩ :: h => r = u ∧ UmaskTruth (m &&& 0o777) h
  | u, _ :: h => UmaskTruth u h

/-- Asked about the path of interest while the process' own socket exists there, the operating system
says that it is a socket. -/
def MetadataTruth (path : Bytes) (euid grp : Nat) : Fs → Hist → Prop
  | _, [] => True
  | s, e :: h =>
    (match e with
      | ⟨.metadata p, r⟩ => p = path → s.node ≠ none → r = some true
      | _ => True) ∧ MetadataTruth path euid grp (Fs.step path euid grp s e) h

/-- What `select(2)` on one descriptor below `FD_SETSIZE`, without a timeout, can answer: that descriptor
is ready, or an error. -/
def SelectSane (fdSetSize : Nat) (h : Hist) : Prop :=
  (∀ p fd, (⟨.bind p, .bound fd⟩ : Ev) ∈ h → fd < fdSetSize) ∧
  ∀ fd r, (⟨.select fd, r⟩ : Ev) ∈ h → r = (1, true) ∨ r.1 = -1

/-- The file types of POSIX (`S_IFMT` field): fifo, character device, directory, block device, regular
file, symbolic link, socket. -/
def fileTypes : List Nat := [0o010000, 0o020000, 0o040000, 0o060000, 0o100000, 0o120000, 0o140000]

/-- `S_ISDIR`. -/
def isDirectory (mode : Nat) : Prop := mode &&& 0o170000 = 0o040000

end SudoPair.Spec
