import Verif.Model.Framework
/-
What the crate sudo_plugin promises to sudo for any plugin (io_plugin.rs and core.rs doc comments).
-/
namespace SudoPair.Spec
open Framework

variable {σ ε : Type}

/-- The policy asked for the data of this facility (io_plugin.rs:44-51). -/
def Wanted (env : IoEnv) : Facility → Prop
  | .ttyin  => env.commandInfo.iologTtyin = true
  | .ttyout => env.commandInfo.iologTtyout = true
  | .stdin  => env.commandInfo.iologStdin = true
  | .stdout => env.commandInfo.iologStdout = true
  | .stderr => env.commandInfo.iologStderr = true

/-- What `open` returns to sudo (sudo_plugin(8): 1 for success, 0 to be left out, -1 for an error, -2 for a usage
error). -/
def openCode : OpenStatus → Int
  | .ok => 1
  | .disable => 0
  | .deny => -1
  | .usage => -2

/-- What the logging functions return to sudo (sudo_plugin(8): 1 to go on, 0 to kill the command, -1 for an error,
after which the function is not called again). -/
def logCode : LogStatus → Int
  | .ok => 1
  | .deny => 0
  | .disable => -1

/-- Of the text `T`, the part in front of the result is handed to sudo's printf as an error message (3), in order;
printf may be interrupted and may take less than it was offered. -/
inductive Says : Bytes → Hist → Bytes → Prop
  | nil {T} : Says T [] T
  | again {T fmt h U} : fmt ≠ [] → fmt <+: T → Says T h U → Says T (⟨.printf 3 fmt, .intr⟩ :: h) U
  | part {T fmt h U} (n : Nat) : 0 < n → n ≤ fmt.length → fmt <+: T → Says (T.drop n) h U →
      Says T (⟨.printf 3 fmt, .wrote n⟩ :: h) U

/-- A line of a message. -/
def line (name text : Bytes) : Bytes := name ++ b! ": " ++ text ++ b! "\n"

/-- The message for an error: an empty line, a line for the error, and, if it has a source, `n` lines for that. -/
def message (name text : Bytes) (source : Option Bytes) (n : Nat) : Bytes :=
  b! "\n" ++ line name text ++ match source with
    | none => []
    | some t => (List.replicate n (line name t)).flatten

/-- An attempt to tell an error to the user: `true` if it ended in a panic.  With a source, the attempt never
succeeds: it goes on until printf refuses. -/
inductive Complains (hasPrintf : Bool) (name text : Bytes) (source : Option Bytes) : Bool → Hist → Prop
  /-- everything was said -/
  | told {h} : hasPrintf = true → source = none → Says (message name text source 0) h [] →
      Complains hasPrintf name text source false h
  /-- there is no printf function -/
  | mute : hasPrintf = false → Complains hasPrintf name text source false []
  /-- a NUL byte is next -/
  | nul {h T n} : hasPrintf = true → Says (message name text source n) h T → (0 : UInt8) ∈ T →
      Complains hasPrintf name text source false h
  /-- printf refused -/
  | refused {h T fmt r n} : hasPrintf = true → Says (message name text source n) h T → fmt ≠ [] → fmt <+: T →
      r = .fail ∨ r = .wrote 0 → Complains hasPrintf name text source false (h ++ [⟨.printf 3 fmt, r⟩])
  /-- printf claims to have written more than it was given -/
  | overcounted {h T fmt n} (k : Nat) : hasPrintf = true → Says (message name text source n) h T → fmt <+: T →
      fmt.length < k → Complains hasPrintf name text source true (h ++ [⟨.printf 3 fmt, .wrote k⟩])

/-- Outcome of a logging method `m` of plugin `P` as seen by sudo: return value `r` after history `h`.
A panic is a refusal; an error is reported and returned as what the plugin declares it to mean (or as
a refusal if reporting it panics). -/
inductive Reported (P : Plugin σ ε) (hasPrintf : Bool) (m : M (Except ε Unit)) : Int → Hist → Prop
  | accepted {s s' h} : m s = (.ok (.ok ()), h, s') → Reported P hasPrintf m 1 h
  | panicked {s s' h} : m s = (.panic, h, s') → Reported P hasPrintf m 0 h
  | error {s s' e h h'} : m s = (.ok (.error e), h, s') →
      Complains hasPrintf P.name (P.display e) (P.source e) false h' →
      Reported P hasPrintf m (logCode (P.logStatus e)) (h ++ h')
  | errorPanicked {s s' e h h'} : m s = (.ok (.error e), h, s') →
      Complains hasPrintf P.name (P.display e) (P.source e) true h' → Reported P hasPrintf m 0 (h ++ h')

/-- Outcome of `open` with usable arguments, in which `P.open` was run. -/
inductive Opened (P : Plugin σ ε) (hasPrintf : Bool) (env : IoEnv) : Int → Option σ → Hist → Prop
  | accepted {s s' h p} : P.open env s = (.ok (.ok p), h, s') → Opened P hasPrintf env 1 (some p) h
  | panicked {s s' h} : P.open env s = (.panic, h, s') → Opened P hasPrintf env (-1) none h
  | error {s s' e h h'} : P.open env s = (.ok (.error e), h, s') →
      Complains hasPrintf P.name (P.display e) (P.source e) false h' →
      Opened P hasPrintf env (openCode (P.openStatus e)) none (h ++ h')
  | errorPanicked {s s' e h h'} : P.open env s = (.ok (.error e), h, s') →
      Complains hasPrintf P.name (P.display e) (P.source e) true h' → Opened P hasPrintf env (-1) none (h ++ h')

end SudoPair.Spec
