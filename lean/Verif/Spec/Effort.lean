import Verif.Model.Os
/-
How much a history did.
-/
namespace SudoPair.Spec

/-- A write that was interrupted by a signal before it wrote anything; it is tried again. -/
def retried : Ev → Bool
  | ⟨.sockWrite _ _, .intr⟩ => true
  | ⟨.ttyWrite _, .intr⟩ => true
  | ⟨.printf _ _, .intr⟩ => true
  | _ => false

/-- The number of writes that were interrupted. -/
def retries (h : Hist) : Nat := h.countP retried

/-- The contents of the files that were read. -/
def filesRead : Hist → List Bytes
  | [] => []
  | ⟨.readFile _, some t⟩ :: h => t :: filesRead h
  | _ :: h => filesRead h

/-- The paths of the files that were opened for reading, whether or not that succeeded. -/
def filesAsked (h : Hist) : List Bytes :=
  h.filterMap fun e => match e.call with
    | .readFile path => some path
    | _ => none

end SudoPair.Spec
