import Verif.Model.Audit
import Verif.Spec.Session
import Verif.Spec.Trace
/-
What the log is to tell about a session: the records of level `info` and above (those that release builds
emit), in between the interactions with the system.
-/
namespace SudoPair.Spec
open Audit

/-- The build has records of level `debug` in it. -/
def Detailed (rt : Rt) : Bool := rt.maxLevel == .trace || rt.maxLevel == .debug

/-- Records that all but specially tailored builds emit. -/
def Lasting : Level → Bool
  | .trace => false
  | .debug => false
  | .info => true
  | .warning => true
  | .error => true

/-- A run without the other records. -/
def view (t : List Entry) : List Entry :=
  t.filter (fun | .sys _ => true | .note r => Lasting r.level)

/-- The lasting records among them. -/
def records : List Entry → List Record
  | [] => []
  | .sys _ :: t => records t
  | .note r :: t => r :: records t

/-- Who does what: these keys are to be on every record. -/
def identity (E : IoEnv) : Fields :=
  [(b! "uid", .num E.userInfo.uid), (b! "runas_euid", .num E.commandInfo.runasEuid),
   (b! "runas_egid", .num E.commandInfo.runasEgid), (b! "command", .text E.commandInfo.command),
   (b! "args", .texts (E.cmdline.drop 1)),
   (b! "plugin_name", .text (b! "sudo_pair")), (b! "plugin_version", .text (b! "1.2.0"))]

/-- A record about the session of `E`. -/
def mark (E : IoEnv) (level : Level) (msg : Bytes) (own : Fields := []) : Entry :=
  .note ⟨level, msg, own ++ identity E⟩

/-- Showing the prompt to the user. -/
def ShowsPrompt : Sys → Prop
  | .readFile _ | .ttyOpen _ | .ttyWrite _ | .printf _ _ => True
  | _ => False

/-- Setting up the socket at `path` and waiting for the pair. -/
def SetsUp (path : Bytes) : Sys → Prop
  | .stat _ | .umask _ | .select _ | .accept _ => True
  | .metadata q | .removeFile q | .bind q | .chown q _ _ | .chmod q _ => q = path
  | _ => False

/-- Talking to the pair. -/
def Talks (fd : Nat) : Sys → Prop
  | .readFile _ | .sigGet | .sigSet _ => True
  | .sockWrite fd' _ | .sockRead fd' _ => fd' = fd
  | _ => False

/-- Taking leave: hanging up and telling the user. -/
def Leaves (fd : Nat) : Sys → Prop
  | .shutdown fd' => fd' = fd
  | .printf _ _ => True
  | _ => False

/-- Telling the user. -/
def TellsUser : Sys → Prop
  | .printf _ _ => True
  | _ => False

/-- The first byte of what was read, if anything was, in the replies to reads. -/
def answers : Hist → List (Option UInt8)
  | [] => []
  | ⟨.sockRead _ _, .data l _⟩ :: h => l.head? :: answers h
  | _ :: h => answers h

/-- The pair's answer was read, but it is lost because the signal handler could not be put back. -/
def Misread (talk : Hist) : Prop :=
  ∃ t fd n, ∃ r : ReadRes n, ∃ act, talk = t ++ [⟨.sockRead fd n, r⟩, ⟨.sigSet act, false⟩]

/-- How the callback ended. -/
inductive Ending where
  | granted | refused | cut
  deriving DecidableEq

/-- The system part of a story. -/
def acts (h : Hist) : List Entry := h.map .sys

/-- The ending of an `open` callback, by what sudo is told. -/
def ending : Out (Int × State) → Ending
  | .ok (r, _) => if r = 1 then .granted else .refused
  | _ => .cut

/-- There is nobody whom the socket could be given to: only the group changes, and without `-g` (C46). -/
def Nobody (E : IoEnv) : Prop := E.commandInfo.runasEuid = E.userInfo.uid ∧ E.settings.runasGroup = none

/-- `Story detailed E path ending t`: the interactions and lasting records `t` of an `open` for the environment `E`,
which needs a pair, with the socket at `path`, that ended this way; `detailed` says whether the build has records of level `debug`. -/
inductive Story (detailed : Bool) (E : IoEnv) (path : Bytes) : Ending → List Entry → Prop
  /-- The request was for both a user and a group. -/
  | conflict (h : Hist) (e : Ending) : (∀ x ∈ h, TellsUser x.call) → e ≠ .granted →
      E.commandInfo.runasEuid ≠ E.userInfo.uid → E.settings.runasGroup ≠ none →
      Story detailed E path e ([mark E .info (b! "pair session required"),
        mark E .error (b! "both -u and -g were provided to sudo")
          [(b! "user", .maybe E.settings.runasUser), (b! "group", .maybe E.settings.runasGroup)]] ++ acts h)
  /-- It ended before the socket was set up: it was cut, or crashed over an impossible reply; or the build has
  the records of level `debug`, for one of which it asks for the mode of the socket before it says that it is waiting. -/
  | unready (h : Hist) (e : Ending) : (∀ x ∈ h, ShowsPrompt x.call) → e ≠ .granted →
      (e = .cut ∨ (∃ x ∈ h, Overcount x) ∨ (detailed = true ∧ Nobody E)) →
      Story detailed E path e (mark E .info (b! "pair session required") :: acts h)
  /-- Nobody came.  (Builds without such records say that they are waiting even if there is nobody to wait for.) -/
  | unconnected (h h' h'' : Hist) (e : Ending) : (∀ x ∈ h, ShowsPrompt x.call) → (∀ x ∈ h', SetsUp path x.call) →
      (∀ x ∈ h'', TellsUser x.call) → e ≠ .granted → (Nobody E → detailed = false ∧ h' = []) →
      Story detailed E path e (mark E .info (b! "pair session required") :: acts h ++
        mark E .info (b! "socket waiting for pair to connect...") [(b! "socket_path", .text path)] :: acts h' ++
        acts h'')
  /-- Somebody came, but no answer; or it ended while they were told that their answer has been received. -/
  | unanswered (h h' talk leave : Hist) (fd : Nat) (e : Ending) : (∀ x ∈ h, ShowsPrompt x.call) →
      (∀ x ∈ h', SetsUp path x.call) → (∀ x ∈ talk, Talks fd x.call) → (∀ x ∈ leave, Leaves fd x.call) → ¬ Nobody E →
      e ≠ .granted → (answers talk = [] ∨ e = .cut ∨ Misread talk ∨ ∃ x ∈ talk, Overcount x) →
      Story detailed E path e (mark E .info (b! "pair session required") :: acts h ++
        mark E .info (b! "socket waiting for pair to connect...") [(b! "socket_path", .text path)] :: acts h' ++
        mark E .info (b! "socket connected") [(b! "socket_path", .text path)] :: acts talk ++ acts leave)
  /-- The answer, or the end of the connection, was a no. -/
  | declined (h h' talk leave : Hist) (fd : Nat) (b : Option UInt8) (e : Ending) : (∀ x ∈ h, ShowsPrompt x.call) →
      (∀ x ∈ h', SetsUp path x.call) → (∀ x ∈ talk, Talks fd x.call) → (∀ x ∈ leave, Leaves fd x.call) → ¬ Nobody E →
      e ≠ .granted → answers talk = [b] → b ≠ some 121 → b ≠ some 89 →
      Story detailed E path e (mark E .info (b! "pair session required") :: acts h ++
        mark E .info (b! "socket waiting for pair to connect...") [(b! "socket_path", .text path)] :: acts h' ++
        mark E .info (b! "socket connected") [(b! "socket_path", .text path)] :: acts talk ++
        mark E .warning (b! "remote pair declined session") :: acts leave)
  /-- The answer was a yes.  (If a session was already open, the new connection is given up.) -/
  | approved (h h' talk leave : Hist) (fd : Nat) (b : UInt8) (e : Ending) : (∀ x ∈ h, ShowsPrompt x.call) →
      (∀ x ∈ h', SetsUp path x.call) → (∀ x ∈ talk, Talks fd x.call) → (∀ x ∈ leave, Leaves fd x.call) → ¬ Nobody E →
      (e = .granted ∨ e = .cut) → answers talk = [some b] → (b = 121 ∨ b = 89) →
      Story detailed E path e (mark E .info (b! "pair session required") :: acts h ++
        mark E .info (b! "socket waiting for pair to connect...") [(b! "socket_path", .text path)] :: acts h' ++
        mark E .info (b! "socket connected") [(b! "socket_path", .text path)] :: acts talk ++
        mark E .info (b! "remote pair approved session") :: mark E .info (b! "pair session started") ::
        acts leave)

/-- The first whose condition holds. -/
inductive First {α : Type} : List (Prop × α) → α → Prop
  | here (c : Prop) (m : α) (l : List (Prop × α)) : c → First ((c, m) :: l) m
  | later (c : Prop) (m : α) (l : List (Prop × α)) (m' : α) : ¬ c → First l m' → First ((c, m) :: l) m'

/-- The reasons for the decision about a session, in the order in which they are considered, with the values that
are recorded along. -/
def reasons (E : IoEnv) (o : PluginOptions) : List (Prop × Bytes × Fields) :=
  [(E.userInfo.uid = E.userInfo.euid, b! "sudo initiated by root", [(b! "user_info.uid", .num E.userInfo.uid)]),
   (Themselves E, b! "sudo to current user",
    [(b! "user_info.uid", .num E.userInfo.uid), (b! "command_info.runas_uid", .num E.commandInfo.runasUid)]),
   (SamePath E.commandInfo.command o.binaryPath, b! "sudo running approval command",
    [(b! "command_info.command", .text E.commandInfo.command),
     (b! "plugin_options.binary_path", .text o.binaryPath)]),
   (Unlogged E, b! "sudo command exempted from logging", []),
   (∃ g ∈ o.gidsExempted, g ∈ E.userInfo.groups, b! "sudo from exempt group id", []),
   (∀ g ∈ o.gidsEnforced, ¬ RunsWith E g, b! "sudo to unenforced group id", []),
   (True, b! "sudo session requires a pair", [])]

/-- How many sessions are recorded to have started, and to have ended. -/
def starts (t : List Entry) : Nat := (records t).countP (·.msg = b! "pair session started")
def ends (t : List Entry) : Nat := (records t).countP (·.msg = b! "pair session ended")

/-- Is a pair connected? -/
def live (st : State) : Nat :=
  match st.plugin with
  | some p => if p.socket.isSome then 1 else 0
  | none => 0

end SudoPair.Spec
