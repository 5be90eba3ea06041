import Verif.Model.Os
/-
The order in which `open` interacts with the system, as an automaton over the history.  It follows the
documentation of the handshake and does not mention the plugin's code.
-/
namespace SudoPair.Spec

/-- What a session's configuration fixes: the socket path and its directory, owner, group and mode for
the socket, the file with the pair's prompt, and the prompt text as a function of that file's contents. -/
structure Plan where
  dir        : Bytes
  path       : Bytes
  uid        : Nat
  gid        : Nat
  mode       : Nat
  promptFile : Bytes
  prompt     : Option Bytes → Bytes

/-- How far the handshake has come. -/
inductive Phase where
  /-- Nothing has happened but the local prompt. -/
  | start
  /-- The directory has been looked at. -/
  | vetted
  /-- A stale socket was found. -/
  | stale
  /-- There is no file at the socket path. -/
  | clear
  /-- The umask was changed from `old`. -/
  | masked (old : Nat)
  /-- The socket is bound.  (A path that cannot be passed to `chown` ends the attempt here.) -/
  | bound (old fd : Nat)
  /-- Its owner and group are set. -/
  | owned (old fd : Nat)
  /-- Its mode is set. -/
  | opened (old fd : Nat)
  /-- Somebody is connecting. -/
  | ready (old fd : Nat)
  /-- There is a connection, or there will not be any. -/
  | over (old : Nat) (c : Option Conn)
  /-- The socket file is still there. -/
  | leftover (old : Nat) (c : Option Conn)
  /-- The socket file is gone, or could not be removed. -/
  | removed (old : Nat) (c : Option Conn)
  /-- The umask is restored, the pair is connected. -/
  | connected (c : Conn)
  /-- Of the prompt `text`, the part `sent` has been delivered. -/
  | asking (fd : Nat) (text sent : Bytes)
  /-- The reply has been read. -/
  | answered (fd : Nat)
  /-- The attempt is given up; only messages to the user may follow. -/
  | closed
  deriving DecidableEq, Repr

/-- From here on the socket file is to be removed. -/
def cleanup (p : Plan) (old : Nat) (c : Option Conn) : Ev → Option Phase
  | ⟨.metadata q, r⟩ =>
    if q = p.path then some (if r = some true then .leftover old c else .removed old c) else none
  | _ => none

/-- The phase after an interaction; `none` if it is out of order. -/
def Plan.next (p : Plan) : Phase → Ev → Option Phase
  | .start, ⟨.readFile _, _⟩ => some .start
  | .start, ⟨.ttyOpen _, _⟩ => some .start
  | .start, ⟨.ttyWrite _, _⟩ => some .start
  | .start, ⟨.printf _ _, _⟩ => some .start
  | .start, ⟨.stat d, r⟩ => if d = p.dir then some (if r = none then .closed else .vetted) else none
  | .vetted, ⟨.printf _ _, _⟩ => some .closed
  | .vetted, ⟨.metadata q, r⟩ =>
    if q = p.path then
      match r with
      | some true => some .stale
      | some false => some .closed
      | none => some .clear
    else none
  | .stale, ⟨.removeFile q, ok⟩ => if q = p.path then some (if ok then .clear else .closed) else none
  | .clear, ⟨.umask m, old⟩ => if m = 0o777 then some (.masked old) else none
  | .masked old, ⟨.bind q, r⟩ =>
    if q = p.path then
      match r with
      | .bound fd => some (.bound old fd)
      | .failed => some (.over old none)
      | .failLeft => some (.over old none)
    else none
  | .bound old fd, ⟨.chown q u g, ok⟩ =>
    if q = p.path ∧ u = p.uid ∧ g = p.gid then some (if ok then .owned old fd else .over old none) else none
  | .bound old _, ⟨.metadata q, r⟩ => cleanup p old none ⟨.metadata q, r⟩
  | .owned old fd, ⟨.chmod q m, ok⟩ =>
    if q = p.path ∧ m = p.mode then some (if ok then .opened old fd else .over old none) else none
  | .opened old fd, ⟨.select fd', r⟩ =>
    if fd' = fd then some (if r = (1, true) then .ready old fd else .over old none) else none
  | .ready old fd, ⟨.accept fd', c⟩ => if fd' = fd then some (.over old c) else none
  | .over old c, e => cleanup p old c e
  | .leftover old c, ⟨.removeFile q, _⟩ => if q = p.path then some (.removed old c) else none
  | .removed old c, ⟨.umask m, _⟩ =>
    if m = old then
      match c with
      | some c => some (.connected c)
      | none => some .closed
    else none
  | .connected c, ⟨.readFile f, r⟩ => if f = p.promptFile then some (.asking c.fd (p.prompt r) []) else none
  | .asking fd t s, ⟨.sigGet, _⟩ => some (.asking fd t s)
  | .asking fd t s, ⟨.sigSet _, _⟩ => some (.asking fd t s)
  | .asking fd t s, ⟨.sockWrite fd' buf, r⟩ =>
    if fd' = fd then
      match r with
      | .wrote n => some (.asking fd t (s ++ buf.take n))
      | _ => some (.asking fd t s)
    else none
  | .asking fd t s, ⟨.sockRead fd' len, _⟩ => if fd' = fd ∧ len = 1 ∧ s = t then some (.answered fd) else none
  | .asking fd _ _, ⟨.shutdown fd', _⟩ => if fd' = fd then some .closed else none
  | .answered fd, ⟨.sigGet, _⟩ => some (.answered fd)
  | .answered fd, ⟨.sigSet _, _⟩ => some (.answered fd)
  | .answered fd, ⟨.sockWrite fd' _, _⟩ => if fd' = fd then some (.answered fd) else none
  | .answered fd, ⟨.shutdown fd', _⟩ => if fd' = fd then some .closed else none
  | .closed, ⟨.printf _ _, _⟩ => some .closed
  | _, _ => none

/-- The phase after a history; `none` if it is not in order. -/
def Plan.follow (p : Plan) : Phase → Hist → Option Phase
  | ph, [] => some ph
  | ph, e :: h => (p.next ph e).bind fun ph' => p.follow ph' h

end SudoPair.Spec
