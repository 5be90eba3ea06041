import Verif.Model.Core
/-
The log records of sudo_pair (crate `slog`): sudo_pair/src/lib.rs with every `slog::…!` in place, as a
second rendering of the functions of Model/Pair and Model/Core.  That the two do the same is theorem
C66_erase.  A logger hands each record to syslog or journald and ignores whether that worked
(lib.rs:766-806, `ignore_res`); a record is modelled as the data handed over, before formatting.
-/
namespace SudoPair.Audit

/-- `Level::as_usize` of slog. -/
def Level.number : Level → Nat
  | .error   => 2
  | .warning => 3
  | .info    => 4
  | .debug   => 5
  | .trace   => 6

/-- Is a record of this level compiled in, where `max` is the most detailed level that is?  (slog's macro `log!`
compares the numbers.) -/
def Level.compiled (max l : Level) : Bool := l.number ≤ max.number

/-- The value of a key: a number, a text (`to_string_lossy` of the bytes), a number printed with
`{:#06o}`, or the `Debug` form of texts or of the plugin's options. -/
inductive Value where
  | num (n : Nat)
  | text (b : Bytes)
  | octal (n : Nat)
  | texts (l : List Bytes)
  | maybe (t : Option Bytes)
  | options (o : PluginOptions)
  deriving DecidableEq, Repr

abbrev Fields := List (Bytes × Value)

/-- A record, with its own keys and those of its logger. -/
structure Record where
  level  : Level
  msg    : Bytes
  fields : Fields
  deriving DecidableEq, Repr

/-- What can be seen of a run: interactions with the system, and log records. -/
inductive Entry where
  | sys (e : Ev)
  | note (r : Record)

/-- Effectful code that logs. -/
def L (α : Type) := Sched → Out α × List Entry × Sched

namespace L

variable {α β : Type}

def pure (a : α) : L α := fun s => (.ok a, [], s)

def bind (m : L α) (f : α → L β) : L β := fun s =>
  match m s with
  | (.ok a, h, s')   => match f a s' with
    | (o, h', s'')   => (o, h ++ h', s'')
  | (.panic, h, s')  => (.panic, h, s')
  | (.killed, h, s') => (.killed, h, s')

instance : Monad L where
  pure := L.pure
  bind := L.bind

/-- Code that does not log. -/
def lift (m : M α) : L α := fun s =>
  match m s with
  | (o, h, s') => (o, h.map .sys, s')

/-- `slog::log!`: hand a record to the logger with keys `ctx`. -/
def say (ctx : Fields) (level : Level) (msg : Bytes) (own : Fields := []) : L Unit := fun s =>
  (.ok (), [.note ⟨level, msg, own ++ ctx⟩], s)

/-- `catch_unwind`. -/
def catchUnwind (m : L α) : L (Option α) := fun s =>
  match m s with
  | (.ok a, h, s')   => (.ok (some a), h, s')
  | (.panic, h, s')  => (.ok none, h, s')
  | (.killed, h, s') => (.killed, h, s')

/-- Drop glue, run while unwinding. -/
def onUnwind (m : L α) (cleanup : L Unit) : L α := fun s =>
  match m s with
  | (.panic, h, s')  => match cleanup s' with
    | (.killed, h', s'') => (.killed, h ++ h', s'')
    | (_, h', s'')       => (.panic, h ++ h', s'')
  | r => r

/-- The same code without the records. -/
def erase (m : L α) : M α := fun s =>
  match m s with
  | (o, t, s') => (o, t.filterMap (fun | .sys e => some e | .note _ => none), s')

end L

/-- The keys of the root logger (lib.rs:787-790, 802-805); `Self::VERSION` is that of the crate
*sudo_plugin* (io_plugin.rs). -/
def root : Fields := [(b! "plugin_name", .text (b! "sudo_pair")), (b! "plugin_version", .text (b! "1.2.0"))]

/-- The keys of the session's logger (lib.rs:119-130). -/
def session (env : IoEnv) : Fields :=
  [(b! "uid", .num env.userInfo.uid),
   (b! "runas_euid", .num env.commandInfo.runasEuid),
   (b! "runas_egid", .num env.commandInfo.runasEgid),
   (b! "command", .text env.commandInfo.command),
   (b! "args", .texts (env.cmdline.drop 1))] ++ root

/-- `self.slog`: every `SudoPair` is made by `open`, which gives it the logger of its environment. -/
def say (p : Pair) (level : Level) (msg : Bytes) (own : Fields := []) : L Unit :=
  L.say (session p.env) level msg own

open Pair in
/-- `is_exempt` (lib.rs:402-460). -/
def isExempt (debug : Bool) (p : Pair) : L Bool := do
  if p.fromRoot then
    say p .debug (b! "sudo initiated by root") [(b! "user_info.uid", .num p.env.userInfo.uid)]
    pure true
  else if ← L.lift (M.ofOption (p.toThemselves debug)) then
    say p .debug (b! "sudo to current user")
      [(b! "user_info.uid", .num p.env.userInfo.uid),
       (b! "command_info.runas_uid", .num p.env.commandInfo.runasUid)]
    pure true
  else if p.approvalCommand then
    say p .debug (b! "sudo running approval command")
      [(b! "command_info.command", .text p.env.commandInfo.command),
       (b! "plugin_options.binary_path", .text p.options.binaryPath)]
    pure true
  else if p.exemptedFromLogging then
    say p .debug (b! "sudo command exempted from logging")
    pure true
  else if p.fromExemptedGid then
    say p .debug (b! "sudo from exempt group id")
    pure true
  else if !(← L.lift (M.ofOption (p.toEnforcedGid debug))) then
    say p .debug (b! "sudo to unenforced group id")
    pure true
  else
    say p .debug (b! "sudo session requires a pair")
    pure false

/-- `local_pair_prompt` (lib.rs:247-296). -/
def localPairPrompt (p : Pair) (spec : TemplateSpec) : L Unit := do
  let template := (← L.lift (M.sys (.readFile p.options.userPromptPath))).getD defaultUserPrompt
  say p .trace (b! "local prompt template loaded")
  let prompt := spec.expand template
  say p .trace (b! "local prompt template evaluated")
  if ← L.lift (p.ttyPrompt prompt) then
    say p .trace (b! "local prompt rendered")
  else
    let _ ← L.lift ((PrintFacility.stderr p.env.hasPrintf).writeAll prompt)
    say p .trace (b! "local prompt rendered")

/-- The keys of the logger in `remote_pair_connect` (lib.rs:299-301). -/
def connecting (p : Pair) : Fields := (b! "socket_path", .text p.socketPath) :: session p.env

/-- The record "socket initializing" (lib.rs:303-307).  Its values are computed only where it is compiled in
(`Level.compiled`): `socket_mode` may panic. -/
def initializing (rt : Rt) (p : Pair) : L Unit := do
  if Level.compiled rt.maxLevel .debug then
    let mode ← L.lift (M.ofOption p.socketMode)
    L.say (connecting p) .debug (b! "socket initializing")
      [(b! "socket_uid", .num p.socketUid), (b! "socket_gid", .num p.socketGid), (b! "socket_mode", .octal mode)]

/-- `remote_pair_connect` (lib.rs:298-335) for `self.socket = None`. -/
def remotePairConnect (rt : Rt) (p : Pair) : L (Except ErrorKind Nat) := do
  initializing rt p
  L.say (connecting p) .info (b! "socket waiting for pair to connect...")
  let mode ← L.lift (M.ofOption p.socketMode)
  match ← L.lift (Socket.open' rt p.socketPath p.socketUid p.socketGid mode) with
  | some conn =>
    L.say (connecting p) .info (b! "socket connected")
    pure (.ok conn.fd)
  | none => pure (.error .communicationError)

/-- `remote_pair_prompt` (lib.rs:337-400). -/
def remotePairPrompt (p : Pair) (spec : TemplateSpec) (fd : Nat) : L (Except ErrorKind Unit) := do
  let template := (← L.lift (M.sys (.readFile p.options.pairPromptPath))).getD defaultPairPrompt
  say p .trace (b! "remote prompt loaded")
  let prompt := spec.expand template
  say p .trace (b! "remote prompt evaluated")
  if ← L.lift (Socket.writeAll fd prompt) then
    if ← L.lift Socket.flush then
      say p .trace (b! "remote prompt rendered")
      say p .debug (b! "remote prompt awaiting response...")
      match Pair.responseByte (← L.lift (Socket.read fd 1)) with
      | none => pure (.error .sessionDeclined)
      | some r =>
        say p .debug (b! "remote pair responded") [(b! "response", .text [r])]
        let _ ← L.lift (Socket.writeAll fd [r])
        let _ ← L.lift (Socket.writeAll fd (b! "\n"))
        if r = 121 ∨ r = 89 then
          say p .info (b! "remote pair approved session")
          pure (.ok ())
        else
          say p .warning (b! "remote pair declined session")
          pure (.error .sessionDeclined)
    else pure (.error .communicationError)
  else pure (.error .communicationError)

/-- `Drop for SudoPair` (lib.rs:669-673), without the drop of its fields. -/
def exiting (p : Pair) : L Unit := say p .debug (b! "plugin exiting")

/-- `SudoPair::open` (lib.rs:114-198) from the creation of `pair` on; it is dropped on every way out but
success. -/
def openPair (rt : Rt) (pair : Pair) : L (Except ErrorKind Pair) := do
  if ← L.onUnwind (isExempt rt.debug pair) (exiting pair) then
    say pair .info (b! "pair session exempt from pairing requirements")
    pure (.ok pair)
  else
    say pair .info (b! "pair session required")
    if pair.toUserAndGroup then
      say pair .error (b! "both -u and -g were provided to sudo")
        [(b! "user", .maybe pair.env.settings.runasUser), (b! "group", .maybe pair.env.settings.runasGroup)]
      exiting pair
      pure (.error .sudoToUserAndGroup)
    else
      let spec := pair.templateSpec
      L.onUnwind (localPairPrompt pair spec) (exiting pair)
      match ← L.onUnwind (remotePairConnect rt pair) (exiting pair) with
      | .error e =>
        exiting pair
        pure (.error e)
      | .ok fd =>
        L.onUnwind (do
          match ← remotePairPrompt pair spec fd with
          | .ok () =>
            say pair .info (b! "pair session started")
            pure (.ok { pair with socket := some fd })
          | .error e =>
            exiting pair
            L.lift (Socket.close fd)
            pure (.error e)) (do exiting pair; L.lift (Socket.close fd))

/-- `SudoPair::open` (lib.rs:114-198). -/
def «open» (rt : Rt) (env : IoEnv) : L (Except ErrorKind Pair) := do
  let pair : Pair := { env, options := .ofMap env.pluginOptions, socket := none }
  L.say root .debug (b! "plugin initializing")
  say pair .debug (b! "initialized with plugin options:") [(b! "plugin_options", .options pair.options)]
  openPair rt pair

/-- Dropping a `SudoPair`: `Drop` first, then its fields. -/
def drop (p : Pair) : L Unit := do
  exiting p
  L.lift p.drop

/-- `SudoPair::close` (lib.rs:200-207), then the drop of `self`, which has no socket any more. -/
def close (p : Pair) : L Unit := do
  match p.socket with
  | none    => pure ()
  | some fd =>
    say p .trace (b! "pair session ending")
    L.lift (Socket.close fd)
    say p .info (b! "pair session ended")
    L.lift (Socket.close fd)
  exiting p

/-- `log_output` (lib.rs:236-245). -/
def logOutput (p : Pair) (log : Bytes) : L (Except ErrorKind Unit) := do
  match ← L.lift (p.logOutput log) with
  | .ok () =>
    say p .trace (b! "{" ++ decNat log.length ++ b! " bytes sent}")
    pure (.ok ())
  | .error e => pure (.error e)

/-- `log_stdin` (lib.rs:221-228). -/
def logStdin (rt : Rt) (p : Pair) : L (Except ErrorKind Unit) := do
  if ← isExempt rt.debug p then pure (.ok ()) else pure (.error .stdinRedirected)

/-- The plugin's handler for a facility (lib.rs:209-228). -/
def handler (rt : Rt) (p : Pair) (buf : Bytes) : Facility → L (Except ErrorKind Unit)
  | .ttyin  => pure (.ok ())
  | .ttyout => logOutput p buf
  | .stdin  => logStdin rt p
  | .stdout => logOutput p buf
  | .stderr => logOutput p buf

namespace Core
open SudoPair.Core

/-- The closure passed to `S::init` (core.rs:174-187). -/
def makePlugin (rt : Rt) (hasPrintf : Bool) (env : IoEnv) : L (Except Int Pair) := do
  if Path.eq env.commandInfo.command [] then pure (.error OPEN_OK)
  else
    match ← Audit.open rt env with
    | .ok p => pure (.ok p)
    | .error e =>
      let _ ← L.lift ((PrintFacility.stderr hasPrintf).writeError e.display none)
      pure (.error OPEN_DENY)

/-- The `open` callback (core.rs:131-189). -/
def «open» (rt : Rt) (a : OpenArgs) (st : State) : L (Int × State) := do
  match ← L.lift (M.catchUnwind (makeEnv rt a)) with
  | none => pure (OPEN_DENY, st)
  | some (.error status) => pure (status, st)
  | some (.ok env) =>
    let env := st.env.getD env
    let st : State := { st with env := some env }
    match ← L.catchUnwind (makePlugin rt a.hasPrintf env) with
    | none => pure (OPEN_DENY, st)
    | some (.error status) => pure (status, st)
    | some (.ok p) =>
      match st.plugin with
      | none   => pure (OPEN_OK, { st with plugin := some p })
      | some _ =>
        drop p
        pure (OPEN_OK, st)

/-- The `close` callback (core.rs:192-199). -/
def close (st : State) : L State := do
  match st.plugin with
  | none   => pure ()
  | some p => Audit.close p
  pure ⟨none, none⟩

/-- The `log_*` callbacks (core.rs:213-340). -/
def log (rt : Rt) (f : Facility) (buf : Bytes) (st : State) : L Int := do
  let r ← L.catchUnwind (do
    let env ← L.lift (M.ofOption st.env)
    let plugin ← L.lift (M.ofOption st.plugin)
    if !hint env.commandInfo f then pure LOG_OK
    else
      let res ← handler rt plugin buf f
      L.lift (finish env res))
  pure (r.getD LOG_DENY)

/-- The `change_winsize` callback (core.rs:343-357). -/
def changeWinsize (lines cols : Nat) (st : State) : L Int := do
  let r ← L.catchUnwind (do
    let env ← L.lift (M.ofOption st.env)
    let plugin ← L.lift (M.ofOption st.plugin)
    let res ← logOutput plugin (Pair.winsizeSeq lines cols)
    L.lift (finish env res))
  pure (r.getD LOG_DENY)

/-- One callback.  `show_version` does not log. -/
def step (rt : Rt) (c : Call) (st : State) : L (Int × State) :=
  match c with
  | .open a             => «open» rt a st
  | .close              => do let st ← close st; pure (0, st)
  | .showVersion        => do let r ← L.lift (showVersion st); pure (r, st)
  | .log f buf          => do let r ← log rt f buf st; pure (r, st)
  | .changeWinsize l c  => do let r ← changeWinsize l c st; pure (r, st)

/-- A sequence of callbacks in one process. -/
def run (rt : Rt) : List Call → State → L (List Int × State)
  | [],      st => pure ([], st)
  | c :: cs, st => do
    let (r, st) ← step rt c st
    let (rs, st) ← run rt cs st
    pure (r :: rs, st)

end Core
end SudoPair.Audit
