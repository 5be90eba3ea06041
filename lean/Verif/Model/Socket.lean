import Verif.Model.Os
import Verif.Model.Path
/-
sudo_pair/src/socket.rs
-/
namespace SudoPair

/-- The bit `SA_RESTART` on Linux. -/
def SA_RESTART : BitVec 32 := 0x10000000#32

/-- `ctrl_c_aborts_syscalls` (socket.rs:262-288).  `none`: a `sigaction` call failed.  If `func`
panics the old handler is not reinstalled. -/
def ctrlCAborts {α : Type} (func : M α) : M (Option α) := do
  match ← M.sys .sigGet with
  | none => pure none
  | some (old : SigAction) =>
    let new : SigAction := { old with flags := old.flags &&& ~~~ SA_RESTART }
    if ← M.sys (.sigSet new) then
      let result ← func
      if ← M.sys (.sigSet old) then pure (some result) else pure none
    else pure none

namespace Socket

/-- `Read for Socket` (socket.rs:235-243).  A failing `sigaction` is an error other than
`Interrupted` (`sigaction(2)` fails only with EFAULT or EINVAL). -/
def read (fd len : Nat) : M (ReadRes len) := do
  match ← ctrlCAborts (M.sys (.sockRead fd len)) with
  | some r => pure r
  | none   => pure .fail

/-- `Write for Socket`, `write` (socket.rs:246-248). -/
def write (fd : Nat) (buf : Bytes) : M WriteRes := do
  match ← ctrlCAborts (M.sys (.sockWrite fd buf)) with
  | some r => pure r
  | none   => pure .fail

/-- `write_all` on the socket. -/
def writeAll (fd : Nat) (buf : Bytes) : M Bool := SudoPair.writeAll (write fd) buf

/-- `Write for Socket`, `flush` (socket.rs:250-252): `UnixStream::flush` does nothing. -/
def flush : M Bool := do
  match ← ctrlCAborts (pure ()) with
  | some () => pure true
  | none    => pure false

/-- `Socket::close` (socket.rs:127-129), also `Drop` (socket.rs:229-233). -/
def close (fd : Nat) : M Unit := do
  let _ ← M.sys (.shutdown fd)
  pure ()

/-- `Socket::unlink` (socket.rs:131-148); `false` is `Err`. -/
def unlink (path : Bytes) : M Bool := do
  match ← M.sys (.metadata path) with
  | some true  => M.sys (.removeFile path)
  | some false => pure false
  | none       => pure true

/-- `S_IFDIR` (socket.rs:174). -/
def S_IFDIR : Nat := 0o040000
/-- `S_IWGRP` (socket.rs:217, lib.rs:617). -/
def S_IWGRP : Nat := 0o020
/-- `S_IWOTH` (socket.rs:217). -/
def S_IWOTH : Nat := 0o002
/-- `S_IWUSR` (lib.rs:606). -/
def S_IWUSR : Nat := 0o200

/-- `Socket::enforce_ownership` (socket.rs:150-226); `false` is `Err`. -/
def enforceOwnership (rt : Rt) (path : Bytes) : M Bool := do
  match Path.parent path with
  | none => pure false
  | some parent =>
    if (0 : UInt8) ∈ parent then pure false              -- `CString::new(parent)?`
    else
      match ← M.sys (.stat parent) with
      | none => pure false
      | some (st : Stat) =>
        if st.mode &&& S_IFDIR = 0 then pure false
        else if st.uid ≠ rt.euid then pure false
        else if st.mode &&& (S_IWGRP ||| S_IWOTH) ≠ 0 then pure false
        else pure true

/-- The closure given to `and_then` (socket.rs:58-108): prepare the bound socket, wait and accept.
`none` is `Err`.  `FD_SET` indexes an array of `FD_SETSIZE` bits and panics beyond it. -/
def acceptOne (rt : Rt) (path : Bytes) (uid gid mode fd : Nat) : M (Option Conn) := do
  if (0 : UInt8) ∈ path then pure none                   -- `CString::new(path)?`
  else if ← M.sys (.chown path uid gid) then
    if ← M.sys (.chmod path mode) then
      if rt.fdSetSize ≤ fd then M.panic
      else
        match ← M.sys (.select fd) with
        | (1, true)  => M.sys (.accept fd)
        | (1, false) => M.panic                          -- not `FD_ISSET`: unreachable!
        | (-1, _)    => pure none
        | _          => M.panic                          -- unreachable!
    else pure none
  else pure none

/-- `Socket::open` (socket.rs:38-125).  `none` is `Err`. -/
def open' (rt : Rt) (path : Bytes) (uid gid mode : Nat) : M (Option Conn) := do
  if ← enforceOwnership rt path then
    if ← unlink path then
      let old ← M.sys (.umask 0o777)
      let socket ← match ← M.sys (.bind path) with
        | .bound fd => acceptOne rt path uid gid mode fd
        | .failed   => pure none
        | .failLeft => pure none
      let _ ← unlink path
      let _ ← M.sys (.umask old)
      pure socket
    else pure none
  else pure none

end Socket
end SudoPair
