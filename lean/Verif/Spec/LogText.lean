import Verif.Model.Bytes
/-
Reading bytes as text when they need not be UTF-8 (Unicode Standard, section 3.9, "Substitution of Maximal
Subparts").
-/
namespace SudoPair.Spec

/-- The beginning of an encoded character, but not all of it. -/
def Beginning (x : Bytes) : Prop := ∃ c, x <+: String.utf8EncodeChar c ∧ x ≠ String.utf8EncodeChar c

/-- The bytes read as text: characters stand for themselves; where none begins, the longest beginning of one, or a
single byte if there is no such beginning, is replaced by U+FFFD. -/
inductive ReadsAs : Bytes → List Char → Prop
  | nil : ReadsAs [] []
  | char {c r t} : ReadsAs r t → ReadsAs (String.utf8EncodeChar c ++ r) (c :: t)
  | bad {x r t} : x ≠ [] → (∀ c, ¬ String.utf8EncodeChar c <+: x ++ r) → (x.length = 1 ∨ Beginning x) →
      (∀ y, y <+: x ++ r → Beginning y → y.length ≤ x.length) → ReadsAs r t → ReadsAs (x ++ r) ('�' :: t)

/-- The characters that have an escape of one letter. -/
def letters : List (Char × Char) :=
  [('t', '\t'), ('r', '\r'), ('n', '\n'), ('"', '"'), ('\\', '\\'), ('\'', '\''), ('0', '\x00')]

/-- The value of hexadecimal digits. -/
def hexValue (ds : List Char) : Nat := ds.foldl (fun n d => 16 * n + "0123456789abcdef".toList.idxOf d) 0

/-- `Written t s`: what stands between the quotes of a literal, and the text that it denotes.  (The Rust Reference,
"Quote escapes", "ASCII escapes" and "Unicode escapes".) -/
inductive Written : List Char → List Char → Prop
  | nil : Written [] []
  | plain {c t s} : c ≠ '"' → c ≠ '\\' → Written t s → Written (c :: t) (c :: s)
  | letter {k c t s} : (k, c) ∈ letters → Written t s → Written ('\\' :: k :: t) (c :: s)
  | code {ds c t s} : ds ≠ [] → (∀ d ∈ ds, d ∈ "0123456789abcdef".toList) → hexValue ds = c.toNat →
      Written t s → Written ('\\' :: 'u' :: '{' :: (ds ++ '}' :: t)) (c :: s)

/-- A quoted text. -/
def Quoted (t s : List Char) : Prop := ∃ w, t = '"' :: (w ++ ['"']) ∧ Written w s

/-- Items separated by commas. -/
inductive Commas {α : Type} (item : List Char → α → Prop) : List Char → List α → Prop
  | one {t a} : item t a → Commas item t [a]
  | more {t a u l} : item t a → Commas item u l → Commas item (t ++ ',' :: ' ' :: u) (a :: l)

/-- Items in brackets. -/
def Bracketed {α : Type} (item : List Char → α → Prop) (opening closing : Char) (t : List Char) (l : List α) : Prop :=
  (l = [] ∧ t = [opening, closing]) ∨ ∃ u, Commas item u l ∧ t = opening :: (u ++ [closing])

/-- A number. -/
def Numeral (t : List Char) (n : Nat) : Prop :=
  t ≠ [] ∧ (∀ d ∈ t, d ∈ "0123456789".toList) ∧ Nat.ofDigitChars 10 t 0 = n

end SudoPair.Spec
