import Verif.Model.Os
/-
What the invoking user sees on the terminal.
-/
namespace SudoPair.Spec

/-- The bytes that this event put on the user's terminal. -/
def ttySent : Ev → Bytes
  | ⟨.ttyWrite buf, .wrote n⟩ => buf.take n
  | _ => []

/-- The bytes put on the user's terminal, in order. -/
def onTty (h : Hist) : Bytes := h.flatMap ttySent

/-- The terminal could not be opened or written. -/
def TtyFails : Ev → Prop
  | ⟨.ttyOpen _, r⟩  => r = false
  | ⟨.ttyWrite _, r⟩ => r = .fail ∨ r = .wrote 0
  | _ => False

end SudoPair.Spec
