import Verif.Model.Drain
import Verif.Spec.Audit
/-
Where log records are to go.
-/
namespace SudoPair.Spec
open Audit

/-- The levels, the most important one first. -/
def levels : List Level := [.error, .warning, .info, .debug, .trace]

/-- The level matters at least as much as `max`. -/
def Matters (max l : Level) : Bool := levels.idxOf l ≤ levels.idxOf max

/-- The log that the records of a session go to, by the features `syslog` and `journald`, whether the system is macOS,
and whether syslog could be reached when the session began. -/
def destination : (syslog journald macos reached : Bool) → Drain.Drain
  | _, true, _, _ => .journald
  | true, false, false, true => .syslog (b! "/dev/log") .auth
  | true, false, true, true => .syslog (b! "/private/var/run/syslog") .auth
  | true, false, _, false => .discard
  | false, false, _, _ => .discard

/-- The same for a build. -/
def destined (b : Drain.Build) (reached : Bool) : Drain.Drain :=
  destination b.features.syslog b.features.journald b.macos reached

/-- What a log is to get of the records `l`, if records down to level `max` are made. -/
def Posted (d : Drain.Drain) (max : Level) (l : List Record) : List Drain.Sent :=
  if d = .discard then [] else (l.filter fun r => Matters max r.level).map fun r => ⟨d, r⟩

/-- What is seen of a run by sudo and by the system. -/
def outward {α : Type} : Out α × Hist × List Drain.Sent × Sched → Out α × Hist × Sched
  | (o, h, _, s) => (o, h, s)

/-- The outcome without the logger. -/
def bare : Out (List Int × Drain.State) → Out (List Int × State)
  | .ok (rs, st) => .ok (rs, st.core)
  | .panic => .panic
  | .killed => .killed

end SudoPair.Spec
