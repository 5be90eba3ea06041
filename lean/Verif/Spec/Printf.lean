import Verif.Model.Os
/-
What a C `printf` shows when it is called with a format string and no further arguments.
-/
namespace SudoPair.Spec

/-- The text printed for a format string, no arguments being passed: `%%` stands for `%`, any other
conversion needs an argument (or is malformed), so the behaviour is undefined, `none`. -/
def render : Bytes → Option Bytes
  | [] => some []
  | [37] => none
  | b :: c :: s =>
    if b = 37 then (if c = 37 then (render s).map (37 :: ·) else none)
    else (render (c :: s)).map (b :: ·)
  | [b] => some [b]

/-- The text shown to the user by a history: that of the successful calls of sudo's printf function, in
order; `none` if one of them is undefined. -/
def screen : Hist → Option Bytes
  | [] => some []
  | e :: h => match e with
    | ⟨.printf _ fmt, .wrote _⟩ => (render fmt).bind fun t => (screen h).map (t ++ ·)
    | _ => screen h

/-- A successful printf call returns the number of bytes it has printed. -/
def PrintfTruth (h : Hist) : Prop :=
  ∀ level fmt n t, (⟨.printf level fmt, .wrote n⟩ : Ev) ∈ h → render fmt = some t → n = t.length

/-- A printf call was refused. -/
def PrintfFails : Ev → Prop
  | ⟨.printf _ _, r⟩ => r = .fail ∨ r = .wrote 0
  | _ => False

end SudoPair.Spec
