import Verif.Model.Core
/-
When sudo_pair closes the descriptors it opened: sudo_pair/src/lib.rs and socket.rs with every `close(2)` that
Rust's drop glue performs, as a third rendering of the functions of Model/Socket, Model/Pair and Model/Core.
That it does the same as the first is theorem C78_erase.  Three kinds of values own a descriptor: the
`UnixListener` (socket.rs:58), the `UnixStream` in a `Socket` (socket.rs:34) and the `File` in a `Tty`
(sudo_plugin/src/output/tty.rs:25).  The prompt files (lib.rs:250, 340) are opened, read and closed in the single
interaction `readFile`, and a failing `UnixListener::bind` closes what it made.  Rust does not look at the result of
`close(2)`.
-/
namespace SudoPair.Handles

/-- What can be seen of a run: interactions with the system, and closed descriptors. -/
inductive Step where
  | sys (e : Ev)
  | closeListener (fd : Nat)
  | closeStream (fd : Nat)
  | closeTty

/-- Effectful code that drops values owning a descriptor. -/
def H (α : Type) := Sched → Out α × List Step × Sched

namespace H

variable {α β : Type}

def pure (a : α) : H α := fun s => (.ok a, [], s)

def bind (m : H α) (f : α → H β) : H β := fun s =>
  match m s with
  | (.ok a, h, s')   => match f a s' with
    | (o, h', s'')   => (o, h ++ h', s'')
  | (.panic, h, s')  => (.panic, h, s')
  | (.killed, h, s') => (.killed, h, s')

instance : Monad H where
  pure := H.pure
  bind := H.bind

/-- Code that closes nothing. -/
def lift (m : M α) : H α := fun s =>
  match m s with
  | (o, h, s') => (o, h.map .sys, s')

/-- The `close(2)` in the drop of the owner. -/
def closing (c : Step) : H Unit := fun s => (.ok (), [c], s)

/-- `catch_unwind`. -/
def catchUnwind (m : H α) : H (Option α) := fun s =>
  match m s with
  | (.ok a, h, s')   => (.ok (some a), h, s')
  | (.panic, h, s')  => (.ok none, h, s')
  | (.killed, h, s') => (.killed, h, s')

/-- Drop glue, run while unwinding. -/
def onUnwind (m : H α) (cleanup : H Unit) : H α := fun s =>
  match m s with
  | (.panic, h, s')  => match cleanup s' with
    | (.killed, h', s'') => (.killed, h ++ h', s'')
    | (_, h', s'')       => (.panic, h ++ h', s'')
  | r => r

/-- A scope owning a value: it is dropped on every way out, also by unwinding. -/
def owning (m : H α) (drop : H Unit) : H α := do
  let a ← onUnwind m drop
  drop
  return a

/-- The same code without the closing. -/
def erase (m : H α) : M α := fun s =>
  match m s with
  | (o, t, s') => (o, t.filterMap (fun | .sys e => some e | _ => none), s')

end H

/-- `drop` of a `UnixListener`. -/
def dropListener (fd : Nat) : H Unit := H.closing (.closeListener fd)

/-- `drop` of a `Socket`: `Drop for Socket` (socket.rs:229-233), then its `UnixStream`. -/
def dropSocket (fd : Nat) : H Unit := do
  H.lift (Socket.close fd)
  H.closing (.closeStream fd)

/-- `Socket::open` (socket.rs:38-125).  The closure given to `and_then` (58-108) takes the listener, so it is
dropped when the closure ends. -/
def socketOpen (rt : Rt) (path : Bytes) (uid gid mode : Nat) : H (Option Conn) := do
  if ← H.lift (Socket.enforceOwnership rt path) then
    if ← H.lift (Socket.unlink path) then
      let old ← H.lift (M.sys (.umask 0o777))
      let socket ← match ← H.lift (M.sys (.bind path)) with
        | .bound fd => H.owning (H.lift (Socket.acceptOne rt path uid gid mode fd)) (dropListener fd)
        | .failed   => pure none
        | .failLeft => pure none
      let _ ← H.lift (Socket.unlink path)
      let _ ← H.lift (M.sys (.umask old))
      pure socket
    else pure none
  else pure none

/-- The statement printing the local prompt (lib.rs:291-293).  The `Tty` is a temporary of the statement, so it is
dropped after the prompt has been printed the other way if that was necessary. -/
def printPrompt (p : Pair) (prompt : Bytes) : H Unit :=
  let fallback : M Unit := do
    let _ ← (PrintFacility.stderr p.env.hasPrintf).writeAll prompt
    pure ()
  match p.env.userInfo.tty with
  | none      => H.lift fallback
  | some path => do
    if ← H.lift (M.sys (.ttyOpen path)) then
      H.owning (do
        if ← H.lift (writeAll (fun buf => M.sys (.ttyWrite buf)) prompt) then pure ()
        else H.lift fallback) (H.closing .closeTty)
    else H.lift fallback

/-- `local_pair_prompt` (lib.rs:247-296). -/
def localPairPrompt (p : Pair) (spec : TemplateSpec) : H Unit := do
  let template := (← H.lift (M.sys (.readFile p.options.userPromptPath))).getD defaultUserPrompt
  printPrompt p (spec.expand template)

/-- `remote_pair_connect` (lib.rs:298-335) for `self.socket = None`. -/
def remotePairConnect (rt : Rt) (p : Pair) : H (Except ErrorKind Nat) := do
  let mode ← H.lift (M.ofOption p.socketMode)
  match ← socketOpen rt p.socketPath p.socketUid p.socketGid mode with
  | some conn => pure (.ok conn.fd)
  | none      => pure (.error .communicationError)

/-- `SudoPair::open` (lib.rs:114-198): after the connection was made `pair` owns the socket, and is dropped on every
way out but success. -/
def «open» (rt : Rt) (env : IoEnv) : H (Except ErrorKind Pair) := do
  let pair : Pair := { env, options := .ofMap env.pluginOptions, socket := none }
  if ← H.lift (M.ofOption (pair.isExempt rt.debug)) then pure (.ok pair)
  else if pair.toUserAndGroup then pure (.error .sudoToUserAndGroup)
  else
    let spec := pair.templateSpec
    localPairPrompt pair spec
    match ← remotePairConnect rt pair with
    | .error e => pure (.error e)
    | .ok fd =>
      H.onUnwind (do
        match ← H.lift (pair.remotePairPrompt spec fd) with
        | .ok () => pure (.ok { pair with socket := some fd })
        | .error e =>
          dropSocket fd
          pure (.error e)) (dropSocket fd)

/-- Dropping a `SudoPair`. -/
def drop (p : Pair) : H Unit :=
  match p.socket with
  | none    => pure ()
  | some fd => dropSocket fd

/-- `SudoPair::close` (lib.rs:200-207): explicit `close`, then the drop of the taken socket. -/
def close (p : Pair) : H Unit :=
  match p.socket with
  | none    => pure ()
  | some fd => do
    H.lift (Socket.close fd)
    dropSocket fd

namespace Core
open SudoPair.Core

/-- The closure passed to `S::init` (core.rs:174-187). -/
def makePlugin (rt : Rt) (hasPrintf : Bool) (env : IoEnv) : H (Except Int Pair) := do
  if Path.eq env.commandInfo.command [] then pure (.error OPEN_OK)
  else
    match ← Handles.open rt env with
    | .ok p => pure (.ok p)
    | .error e =>
      let _ ← H.lift ((PrintFacility.stderr hasPrintf).writeError e.display none)
      pure (.error OPEN_DENY)

/-- The `open` callback (core.rs:131-189). -/
def «open» (rt : Rt) (a : OpenArgs) (st : State) : H (Int × State) := do
  match ← H.lift (M.catchUnwind (makeEnv rt a)) with
  | none => pure (OPEN_DENY, st)
  | some (.error status) => pure (status, st)
  | some (.ok env) =>
    let env := st.env.getD env
    let st : State := { st with env := some env }
    match ← H.catchUnwind (makePlugin rt a.hasPrintf env) with
    | none => pure (OPEN_DENY, st)
    | some (.error status) => pure (status, st)
    | some (.ok p) =>
      match st.plugin with
      | none   => pure (OPEN_OK, { st with plugin := some p })
      | some _ =>
        drop p
        pure (OPEN_OK, st)

/-- The `close` callback (core.rs:192-199). -/
def close (st : State) : H State := do
  match st.plugin with
  | none   => pure ()
  | some p => Handles.close p
  pure ⟨none, none⟩

/-- One callback.  Those not shown here open and close nothing. -/
def step (rt : Rt) (c : Call) (st : State) : H (Int × State) :=
  match c with
  | .open a             => «open» rt a st
  | .close              => do let st ← close st; pure (0, st)
  | .showVersion        => H.lift (SudoPair.Core.step rt .showVersion st)
  | .log f buf          => H.lift (SudoPair.Core.step rt (.log f buf) st)
  | .changeWinsize l c  => H.lift (SudoPair.Core.step rt (.changeWinsize l c) st)

/-- A sequence of callbacks in one process. -/
def run (rt : Rt) : List Call → State → H (List Int × State)
  | [],      st => pure ([], st)
  | c :: cs, st => do
    let (r, st) ← step rt c st
    let (rs, st) ← run rt cs st
    pure (r :: rs, st)

end Core
end SudoPair.Handles
