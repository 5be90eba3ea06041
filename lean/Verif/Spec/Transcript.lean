import Verif.Spec.Audit
import Verif.Spec.Text
import Verif.Spec.Framework
/-
The complete log of a session, with the records of all levels.  What a build emits are those of them that it has compiled
in.
-/
namespace SudoPair.Spec
open Audit

/-- A record about the session of `E`. -/
def about (E : IoEnv) (level : Level) (msg : Bytes) (own : Fields := []) : Record := ⟨level, msg, own ++ identity E⟩

/-- The one record that is made before it is known what the session is about. -/
def beginning : Record :=
  ⟨.debug, b! "plugin initializing",
    [(b! "plugin_name", .text (b! "sudo_pair")), (b! "plugin_version", .text (b! "1.2.0"))]⟩

/-- The record that a session is given up. -/
def leaving (E : IoEnv) : Record := about E .debug (b! "plugin exiting")

/-- The first records of a session. -/
def prologue (E : IoEnv) (o : PluginOptions) : List Record :=
  [beginning, about E .debug (b! "initialized with plugin options:") [(b! "plugin_options", .options o)]]

/-- Showing the prompt to the user. -/
def prompting (E : IoEnv) : List Record :=
  [about E .trace (b! "local prompt template loaded"), about E .trace (b! "local prompt template evaluated"),
   about E .trace (b! "local prompt rendered")]

/-- The record about the socket to be made, in builds with records of level `debug`: it belongs to the target user (and is writable by
them), or otherwise to the target group; `4294967295` means "leave as it is". -/
def socketNote (E : IoEnv) (path : Bytes) : Record :=
  about E .debug (b! "socket initializing")
    ([(b! "socket_uid", .num (if E.commandInfo.runasEuid = E.userInfo.uid then 4294967295 else E.commandInfo.runasEuid)),
      (b! "socket_gid", .num (if E.settings.runasGroup = none then 4294967295 else E.commandInfo.runasEgid)),
      (b! "socket_mode", .octal (if E.commandInfo.runasEuid = E.userInfo.uid then 0o020 else 0o200)),
      (b! "socket_path", .text path)])

/-- Waiting for the pair; `detailed` says whether the build has records of level `debug`. -/
def waiting (detailed : Bool) (E : IoEnv) (path : Bytes) : List Record :=
  (if detailed then [socketNote E path] else []) ++
  [about E .info (b! "socket waiting for pair to connect...") [(b! "socket_path", .text path)],
   about E .info (b! "socket connected") [(b! "socket_path", .text path)]]

/-- The record of the pair's answer. -/
def response (E : IoEnv) (b : UInt8) : Record :=
  about E .debug (b! "remote pair responded") [(b! "response", .text [b])]

/-- Asking the pair, who answers `b`. -/
def asking (E : IoEnv) (b : UInt8) : List Record :=
  [about E .trace (b! "remote prompt loaded"), about E .trace (b! "remote prompt evaluated"),
   about E .trace (b! "remote prompt rendered"), about E .debug (b! "remote prompt awaiting response..."),
   response E b]

/-- Everything recorded about a session that needs a pair, up to the answer `b`. -/
def asked (detailed : Bool) (E : IoEnv) (o : PluginOptions) (path : Bytes) (b : UInt8) : List Record :=
  prologue E o ++ [about E .debug (b! "sudo session requires a pair"), about E .info (b! "pair session required")] ++
  prompting E ++ waiting detailed E path ++ asking E b

/-- `Course detailed E o path granted b l`: the complete log `l` of an `open` for the environment `E` and the options
`o`, if nothing goes wrong; whether it succeeds; and what the pair answered, if it came to that. -/
inductive Course (detailed : Bool) (E : IoEnv) (o : PluginOptions) (path : Bytes) : Bool → Option UInt8 → List Record → Prop
  | exempt (msg : Bytes) (own : Fields) : First (reasons E o) (msg, own) → msg ≠ b! "sudo session requires a pair" →
      Course detailed E o path true none (prologue E o ++
        [about E .debug msg own, about E .info (b! "pair session exempt from pairing requirements")])
  | conflict : ¬ Exempt E o → E.commandInfo.runasEuid ≠ E.userInfo.uid → E.settings.runasGroup ≠ none →
      Course detailed E o path false none (prologue E o ++
        [about E .debug (b! "sudo session requires a pair"), about E .info (b! "pair session required"),
         about E .error (b! "both -u and -g were provided to sudo")
           [(b! "user", .maybe E.settings.runasUser), (b! "group", .maybe E.settings.runasGroup)]])
  | approved (b : UInt8) : ¬ Exempt E o → b = 121 ∨ b = 89 →
      Course detailed E o path true (some b) (asked detailed E o path b ++
        [about E .info (b! "remote pair approved session"), about E .info (b! "pair session started")])
  | declined (b : UInt8) : ¬ Exempt E o → ¬ (b = 121 ∨ b = 89) →
      Course detailed E o path false (some b) (asked detailed E o path b ++
        [about E .warning (b! "remote pair declined session")])

/-- A log that stops short: a part of a course (not all of one that succeeds), and the record that the session is
given up. -/
def StopsShort (detailed : Bool) (E : IoEnv) (o : PluginOptions) (path : Bytes) (l : List Record) : Prop :=
  ∃ g b full pre, Course detailed E o path g b full ∧ prologue E o <+: pre ∧ pre <+: full ∧ (g = true → pre ≠ full) ∧
    l = pre ++ [leaving E]

/-- A log that is cut off. -/
def CutOff (detailed : Bool) (E : IoEnv) (o : PluginOptions) (path : Bytes) (l : List Record) : Prop :=
  ∃ g b full pre, Course detailed E o path g b full ∧ prologue E o <+: pre ∧ pre <+: full ∧
    (l = pre ∨ l = pre ++ [leaving E])

/-- The records of a `close` with a pair. -/
def parting (E : IoEnv) : List Record :=
  [about E .trace (b! "pair session ending"), about E .info (b! "pair session ended"), leaving E]

/-- The record that `n` bytes were accepted. -/
def sentNote (E : IoEnv) (n : Nat) : Record := about E .trace (b! "{" ++ decimal n ++ b! " bytes sent}")

/-- Facilities with output of the command. -/
def Shown : Facility → Prop
  | .ttyout | .stdout | .stderr => True
  | .ttyin | .stdin => False

/-- `a`, if the pair answered `a`; `n`, if they hung up. -/
def heard : Option UInt8 → UInt8
  | some b => b
  | none => 110

/-- The interactions with the system. -/
def deeds : List Audit.Entry → Hist
  | [] => []
  | .sys e :: t => e :: deeds t
  | .note _ :: t => deeds t

/-- Every answer that is recorded is the one that was read last. -/
def Echoed (t : List Audit.Entry) : Prop :=
  ∀ pre r post, t = pre ++ .note r :: post → r.msg = b! "remote pair responded" →
    ∃ ans E, (answers (deeds pre)).getLast? = some ans ∧ r = response E (heard ans)

/-- How many sessions are recorded to begin, and to be given up. -/
def begun (t : List Audit.Entry) : Nat := (records t).countP (·.msg = b! "plugin initializing")
def left (t : List Audit.Entry) : Nat := (records t).countP (·.msg = b! "plugin exiting")

/-- Is there a session? -/
def present (st : State) : Nat := if st.plugin.isSome then 1 else 0

end SudoPair.Spec
