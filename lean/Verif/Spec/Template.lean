import Verif.Model.Bytes
/-
The documented prompt-template language, independently of the expansion code.
-/
namespace SudoPair.Spec

/-- `Expands e val s t`: template `s` expands to `t`, when `e` is the escape byte and `val b` the text
defined for `%b`. -/
inductive Expands (e : UInt8) (val : UInt8 → Option Bytes) : Bytes → Bytes → Prop
  /-- the empty template -/
  | nil : Expands e val [] []
  /-- an ordinary byte is copied -/
  | lit {b s t} : b ≠ e → Expands e val s t → Expands e val (b :: s) (b :: t)
  /-- an escaped byte with a definition -/
  | sub {b x s t} : val b = some x → Expands e val s t → Expands e val (e :: b :: s) (x ++ t)
  /-- an escaped byte without a definition stands for itself -/
  | raw {b s t} : val b = none → Expands e val s t → Expands e val (e :: b :: s) (b :: t)
  /-- a single trailing escape byte is dropped -/
  | trailing : Expands e val [e] []

/-- A template token: an ordinary byte, or an escaped byte. -/
inductive Tok where
  | lit (b : UInt8)
  | esc (b : UInt8)

/-- How a token is written. -/
def Tok.render (e : UInt8) : Tok → Bytes
  | .lit b => [b]
  | .esc b => [e, b]

/-- What a token means: independent of the text around it. -/
def Tok.meaning (val : UInt8 → Option Bytes) : Tok → Bytes
  | .lit b => [b]
  | .esc b => (val b).getD [b]

/-- A token sequence is well-formed if no literal is the escape byte. -/
def Tok.Ok (e : UInt8) : Tok → Prop
  | .lit b => b ≠ e
  | .esc _ => True

/-- The number of escape bytes at the very end. -/
def trailingEscapes (e : UInt8) (s : Bytes) : Nat := (s.reverse.takeWhile (· = e)).length

/-- Doubling every escape byte. -/
def protect (e : UInt8) (s : Bytes) : Bytes := s.flatMap (fun b => if b = e then [e, e] else [b])

end SudoPair.Spec
