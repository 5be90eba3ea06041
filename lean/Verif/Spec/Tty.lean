import Verif.Spec.Trace
import Verif.Spec.Status
/-
A terminal: what it does with the keys that are pressed, and what `stty` does to it.  Left out: editing of lines,
translations of characters, flow control.
-/
namespace SudoPair.Spec

/-- Settings of a terminal.  The character 0 disables a function. -/
structure Tty where
  /-- input is handed over line by line -/
  icanon : Bool
  /-- input is shown -/
  echo : Bool
  /-- some characters send signals -/
  isig : Bool
  /-- interrupt -/
  intr : UInt8
  /-- quit -/
  quit : UInt8
  /-- suspend -/
  susp : UInt8
  /-- everything else -/
  others : Bytes
  deriving DecidableEq

/-- Control and a letter. -/
def ctrl (c : Char) : UInt8 := c.toNat.toUInt8 - 64

/-- The key ends the program that has the terminal. -/
def Tty.kills (t : Tty) (key : UInt8) : Bool := t.isig && key ≠ 0 && (key = t.intr || key = t.quit)

/-- The key suspends it. -/
def Tty.stops (t : Tty) (key : UInt8) : Bool := t.isig && key ≠ 0 && key = t.susp

/-- The keys before the first that sends a signal. -/
def Tty.plain (t : Tty) (keys : Bytes) : Bytes := keys.takeWhile fun k => !t.kills k && !t.stops k

/-- The bytes that the program gets while these keys are pressed. -/
def Tty.handsOver (t : Tty) (keys : Bytes) : Bytes :=
  if t.icanon then ((t.plain keys).reverse.dropWhile (· ≠ 10)).reverse else t.plain keys

/-- The bytes that the terminal itself shows. -/
def Tty.shows (t : Tty) (keys : Bytes) : Bytes := if t.echo then t.plain keys else []

/-- One of the keys ends the program; before it, none suspends it. -/
def Tty.ends (t : Tty) (keys : Bytes) : Prop :=
  ∃ before k after, keys = before ++ k :: after ∧ t.kills k = true ∧ ∀ j ∈ before, t.stops j = false

/-- What a command of the approval script does to the terminal and to the settings saved.  The settings `stty -g` prints
are those in force; `stty` with nothing else changes nothing; `stty` that fails leaves whatever `fail` says. -/
def sttyStep (fail : Tty → Tty) (ans : Approve.Answers) (s : Tty × Option Tty) (c : Approve.Cmd) : Tty × Option Tty :=
  let does (t : Tty) : Tty := if (ans c).isSome then t else fail s.1
  match c with
  | .sttyGet     => (s.1, if (ans c).isSome then some s.1 else none)
  | .sttyRaw     => (does { s.1 with icanon := false, echo := false }, s.2)
  | .sttyIntr    => (does { s.1 with intr := ctrl 'D' }, s.2)
  | .sttyRestore => (does (s.2.getD s.1), s.2)
  | _            => s

/-- The terminal after these commands of one run of the script. -/
def ttyAfter (fail : Tty → Tty) (ans : Approve.Answers) (t : Tty) (cs : List Approve.Cmd) : Tty :=
  (cs.foldl (sttyStep fail ans) (t, none)).1

/-- The bytes read from the peer connected as `fd`, in order. -/
def received (fd : Nat) (h : Hist) : Bytes :=
  h.flatMap fun
    | ⟨.sockRead fd' _, .data bs _⟩ => if fd' = fd then bs else []
    | _ => []

end SudoPair.Spec
