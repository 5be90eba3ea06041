import Verif.Model.Bytes
/-
A terminal, as far as it matters for the prompt of the pair.  sudo_approve hands what it receives to the terminal as it
is (sample/bin/sudo_approve:32-43: the output processing of the terminal stays on, so that a line feed also returns to the
first column).  This is an assumption about terminals, not code of /repo: lines are as long as need be, and of the
control functions only those below have an effect.
-/
namespace SudoPair.Spec

/-- The lines above the cursor, the line of the cursor, its column, and what has been seen of an escape sequence:
nothing, the escape byte, or `ESC [` and some parameters. -/
structure Screen where
  above : List Bytes
  line  : Bytes
  col   : Nat
  esc   : Option (Option Bytes)
  deriving DecidableEq, Repr

namespace Screen

/-- After `clear`. -/
def blank : Screen := ⟨[], [], 0, none⟩

/-- A character replaces the one under the cursor, if any. -/
def put (s : Screen) (b : UInt8) : Screen :=
  { s with line := s.line.take s.col ++ b :: s.line.drop (s.col + 1), col := s.col + 1 }

/-- `ESC [ K` erases the line from the cursor on; other sequences (`ESC [ … m`: colours) leave the text alone. -/
def control (s : Screen) (params : Bytes) (final : UInt8) : Screen :=
  { s with line := if final = 75 ∧ params = [] then s.line.take s.col else s.line, esc := none }

/-- What a byte does.  An escape byte begins a sequence, even within one; the control characters do what they do within
a sequence as well, and two of them break it off. -/
def feed (s : Screen) (b : UInt8) : Screen :=
  if b = 27 then { s with esc := some none }
  else if b = 24 ∨ b = 26 then { s with esc := none }
  else if b = 10 then ⟨s.above ++ [s.line], [], 0, s.esc⟩
  else if b = 13 then { s with col := 0 }
  else if b = 8 then { s with col := s.col - 1 }
  else if b < 32 ∨ b = 127 then s
  else match s.esc with
  | none => s.put b
  | some none => if b = 91 then { s with esc := some (some []) } else { s with esc := none }
  | some (some ps) => if 64 ≤ b ∧ b ≤ 126 then s.control ps b else { s with esc := some (some (ps ++ [b])) }

/-- What a text does. -/
def type (s : Screen) (text : Bytes) : Screen := text.foldl feed s

/-- The text that is to be seen. -/
def lines (s : Screen) : List Bytes := s.above ++ [s.line]

end Screen

/-- What is to be seen of a text that is sent to a cleared terminal. -/
def seen (text : Bytes) : List Bytes := (Screen.blank.type text).lines

/-- Printable ASCII characters and nothing else. -/
def Printable (text : Bytes) : Prop := ∀ b ∈ text, 32 ≤ b ∧ b ≤ 126

instance (text : Bytes) : Decidable (Printable text) := inferInstanceAs (Decidable (∀ b ∈ text, 32 ≤ b ∧ b ≤ 126))

end SudoPair.Spec
