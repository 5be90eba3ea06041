import Verif.Lemmas.Exec
/-
The sudo front end, as far as the plugin API documents it (sudo_plugin(8), quoted in
sudo_plugin/src/core.rs:30-84 and sudo_plugin/src/plugin/io_plugin.rs:65-200): `open` is called before
the command starts, and the command is started only if it returns 1; every piece of output or input is
handed to the log callback first and passed on only if that returns 1; anything else ends the session.
This is an assumption about sudo, not code of /repo.
-/
namespace SudoPair.Spec
open Core

/-- What happens during a sudo session. -/
inductive Act where
  /-- a system interaction of the plugin -/
  | sys (e : Ev)
  /-- sudo starts the command -/
  | start
  /-- sudo goes on after a callback: output is written to the user's terminal (or standard output or
  error), input is handed to the command, a resize is passed on -/
  | pass (c : Call)
  /-- sudo terminates the command -/
  | stop

/-- The plugin's interactions among the actions. -/
def sysOf (t : List Act) : Hist := t.filterMap (fun a => match a with | .sys e => some e | _ => none)

/-- The callbacks after which sudo went on. -/
def passed (t : List Act) : List Call := t.filterMap (fun a => match a with | .pass c => some c | _ => none)

/-- What the user has been shown of facility `f`. -/
def shown (f : Facility) (t : List Act) : Bytes :=
  (passed t).flatMap (fun c => match c with | .log g buf => if g = f then buf else [] | _ => [])

/-- Actions of a running session with the plugin's slots at `st`; `some st'`: it is still running. -/
inductive Running (rt : Rt) (st : State) : List Act → Option State → Prop
  | nil : Running rt st [] (some st)
  | pass {t st' c st'' h} : Running rt st t (some st') → c.isLog →
      Runs (Core.step rt c st') (.ok (1, st'')) h →
      Running rt st (t ++ (h.map .sys ++ [.pass c])) (some st'')
  | stop {t st' c o h} : Running rt st t (some st') → c.isLog → Runs (Core.step rt c st') o h →
      (∀ st'', o ≠ .ok (1, st'')) → Running rt st (t ++ (h.map .sys ++ [.stop])) none

/-- The actions of one sudo session opened with `a`. -/
inductive SudoSession (rt : Rt) (a : OpenArgs) : List Act → Prop
  | refused {o h} : Runs (Core.open rt a Core.init) o h → (∀ st, o ≠ .ok (1, st)) →
      SudoSession rt a (h.map .sys ++ [.stop])
  | runs {st h t r} : Runs (Core.open rt a Core.init) (.ok (1, st)) h → Running rt st t r →
      SudoSession rt a (h.map .sys ++ .start :: t)

end SudoPair.Spec
