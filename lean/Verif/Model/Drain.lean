import Verif.Model.Audit
/-
Where log records go: `slog` (sudo_pair/src/lib.rs:765-806) and the Cargo features that select it
(sudo_pair/Cargo.toml:21-25).  A third rendering of the callbacks, on top of Model/Audit, in which the plugin has a
logger (field `slog`, lib.rs:106).
-/
namespace SudoPair.Drain
open Audit

/-- The features of the crate that concern logging (Cargo.toml:24-25). -/
structure Features where
  syslog   : Bool
  journald : Bool
  deriving DecidableEq

/-- `default = ['syslog', 'change_winsize']` (Cargo.toml:22). -/
def Features.default : Features := ⟨true, false⟩

/-- The facilities of syslog, as far as used. -/
inductive Facility where
  | auth
  deriving DecidableEq

/-- `slog::Discard`, `slog_syslog::Streamer3164` for a Unix socket, `slog_journald::JournaldDrain`. -/
inductive Drain where
  | discard
  | syslog (path : Bytes) (facility : Facility)
  | journald
  deriving DecidableEq

/-- A root logger: where it sends records, and the keys that it adds. -/
structure Logger where
  drain : Drain
  keys  : Fields

/-- How the plugin is built, and for what system. -/
structure Build where
  features : Features
  macos    : Bool

/-- `SYSLOG_PATH` (lib.rs:773-777). -/
def syslogPath (macos : Bool) : Bytes := if macos then b! "/private/var/run/syslog" else b! "/dev/log"

/-- `slog` (lib.rs:766-806); `started` tells whether `SyslogBuilder::start` succeeded.  The first of the three
definitions (neither feature) says `o!` where no macro of that name is imported, so that such a build does not
compile; here it is taken for what it means, `slog::o!`. -/
def logger (b : Build) (started : Bool) (name version : Bytes) : Logger :=
  let named : Fields := [(b! "plugin_name", .text name), (b! "plugin_version", .text version)]
  if b.features.journald then ⟨.journald, named⟩
  else if b.features.syslog then
    if started then ⟨.syslog (syslogPath b.macos) .auth, named⟩ else ⟨.discard, []⟩
  else ⟨.discard, []⟩

/-- The logger that `open` makes (lib.rs:115). -/
def sessionLogger (b : Build) (started : Bool) : Logger := logger b started (b! "sudo_pair") (b! "1.2.0")

/-- A record handed to a system log. -/
structure Sent where
  to     : Drain
  record : Record
  deriving DecidableEq

/-- `slog::log!`: records that are not compiled in are not made, and `Discard` makes nothing of the others.
`ignore_res` makes nothing of failures. -/
def send (max : Level) (lg : Logger) (r : Record) : List Sent :=
  if Level.compiled max r.level then
    match lg.drain with
    | .discard => []
    | d => [⟨d, r⟩]
  else []

/-- All records of a run, in order. -/
def sendAll (max : Level) (lg : Logger) : List Entry → List Sent
  | []           => []
  | .sys _ :: t  => sendAll max lg t
  | .note r :: t => send max lg r ++ sendAll max lg t

/-- The state of the plugin with the logger of the session, if there is one. -/
structure State where
  core   : SudoPair.State
  logger : Option Logger

/-- No session. -/
def State.empty : State := ⟨⟨none, none⟩, none⟩

/-- A callback, with whether syslog can be reached while it runs.  An `open` makes a logger; the session has it from
then on.  If there is a session already, the new one is dropped, and its logger with it (Model/Core). -/
def step (rt : Rt) (b : Build) (c : SudoPair.Core.Call) (up : Bool) (st : State) (s : Sched) :
    Out (Int × State) × Hist × List Sent × Sched :=
  let lg : Logger := match c with
    | .open _ => sessionLogger b up
    | _       => st.logger.getD ⟨.discard, []⟩
  match Audit.Core.step rt c st.core s with
  | (o, t, s') =>
    let after (core : SudoPair.State) : Option Logger :=
      match core.plugin with
      | none   => none
      | some _ => if st.core.plugin.isSome then st.logger else some lg
    let o' : Out (Int × State) := match o with
      | .ok (r, core) => .ok (r, ⟨core, after core⟩)
      | .panic        => .panic
      | .killed       => .killed
    (o', t.filterMap (fun | .sys e => some e | .note _ => none), sendAll rt.maxLevel lg t, s')

/-- A sequence of callbacks in one process. -/
def run (rt : Rt) (b : Build) : List (SudoPair.Core.Call × Bool) → State → Sched →
    Out (List Int × State) × Hist × List Sent × Sched
  | [],            st, s => (.ok ([], st), [], [], s)
  | (c, up) :: cs, st, s =>
    match step rt b c up st s with
    | (.ok (r, st'), h, l, s') =>
      match run rt b cs st' s' with
      | (.ok (rs, st''), h', l', s'') => (.ok (r :: rs, st''), h ++ h', l ++ l', s'')
      | (.panic, h', l', s'')         => (.panic, h ++ h', l ++ l', s'')
      | (.killed, h', l', s'')        => (.killed, h ++ h', l ++ l', s'')
    | (.panic, h, l, s')  => (.panic, h, l, s')
    | (.killed, h, l, s') => (.killed, h, l, s')

end SudoPair.Drain
