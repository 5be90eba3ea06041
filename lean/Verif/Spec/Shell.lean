import Verif.Model.Bytes
/-
How a shell reads a command of characters that mean themselves, blanks and single quotes (POSIX.1-2017, Shell Command
Language, 2.2.2 and 2.3).  Used for the command that the user is told to pass on.  An assumption about shells, not code of
/repo.
-/
namespace SudoPair.Spec

/-- Letters, digits, and `/`, `.`, `_`, `-`: they mean themselves. -/
def PlainChar (b : UInt8) : Prop :=
  (97 ≤ b ∧ b ≤ 122) ∨ (65 ≤ b ∧ b ≤ 90) ∨ (45 ≤ b ∧ b ≤ 57) ∨ b = 95

instance (b : UInt8) : Decidable (PlainChar b) := by unfold PlainChar; infer_instance

def PlainWord (t : Bytes) : Prop := t ≠ [] ∧ ∀ b ∈ t, PlainChar b

/-- The words of the rest of a command: `word` is what has been read of a word, if it has begun, and `quoted` says whether
a quote is open. -/
def wordsFrom (word : Option Bytes) (quoted : Bool) : Bytes → List Bytes
  | []     => word.toList
  | b :: t =>
    if b = 39 then wordsFrom (some (word.getD [])) (!quoted) t
    else if b = 32 ∧ !quoted then word.toList ++ wordsFrom none false t
    else wordsFrom (some (word.getD [] ++ [b])) quoted t

/-- The words of a command. -/
def shellWords (command : Bytes) : List Bytes := wordsFrom none false command

end SudoPair.Spec
