import Verif.Model.Bytes
/-
Independent specifications of how sudo's textual input is to be read.  Nothing here mentions the
parsing functions of the model.
-/
namespace SudoPair.Spec

/-- Entry `e` of an option vector says "key `k` has value `v`": it is `k=v`, split at the first `=`,
or it has no `=` and is both key and value. -/
def Entry (e k v : Bytes) : Prop :=
  (e = k ++ 61 :: v ∧ (61 : UInt8) ∉ k) ∨ ((61 : UInt8) ∉ e ∧ k = e ∧ v = e)

/-- `v` is the value of key `k` in the option vector: that of the last entry with key `k`.  A NULL
vector has no entries. -/
def Value (vec : Option (List Bytes)) (k v : Bytes) : Prop :=
  ∃ pre e post, vec = some (pre ++ e :: post) ∧ Entry e k v ∧
    ∀ e' ∈ post, ∀ v', ¬ Entry e' k v'

/-- Well-formed UTF-8: the encoding of some sequence of Unicode scalar values. -/
def Utf8 (bs : Bytes) : Prop := ∃ cs : List Char, bs = cs.flatMap String.utf8EncodeChar

/-- Decimal notation, with the digits of Lean's standard library. -/
def decimal (n : Nat) : Bytes := (Nat.toDigits 10 n).map (fun c => UInt8.ofNat c.toNat)

/-- Decimal notation of an integer. -/
def decimalInt (i : Int) : Bytes := if 0 ≤ i then decimal i.toNat else b! "-" ++ decimal (-i).toNat

/-- ASCII decimal digit. -/
def IsDigit (b : UInt8) : Prop := 48 ≤ b.toNat ∧ b.toNat ≤ 57

/-- The number denoted by a string of decimal digits, most significant first. -/
def decVal (ds : Bytes) : Nat := ds.foldl (fun a d => a * 10 + (d.toNat - 48)) 0

/-- `ds` is a non-empty string of decimal digits denoting `n`. -/
def Decimal (ds : Bytes) (n : Nat) : Prop := ds ≠ [] ∧ (∀ d ∈ ds, IsDigit d) ∧ decVal ds = n

/-- `s` denotes the unsigned `bits`-bit integer `n`. -/
def DenotesU (bits : Nat) (s : Bytes) (n : Nat) : Prop :=
  n < 2 ^ bits ∧ (Decimal s n ∨ ∃ ds, s = 43 :: ds ∧ Decimal ds n)

/-- `s` denotes the signed `bits`-bit integer `i`. -/
def DenotesI (bits : Nat) (s : Bytes) (i : Int) : Prop :=
  - (2 ^ (bits - 1) : Int) ≤ i ∧ i < (2 ^ (bits - 1) : Int) ∧
  ((∃ n, Decimal s n ∧ i = n) ∨ (∃ ds n, s = 43 :: ds ∧ Decimal ds n ∧ i = n) ∨
   (∃ ds n, s = 45 :: ds ∧ Decimal ds n ∧ i = - (n : Int)))

/-- `s` denotes a Boolean. -/
def DenotesB (s : Bytes) (x : Bool) : Prop :=
  s = if x then b! "true" else b! "false"

/-- Text denotes itself. -/
def DenotesS (s : Bytes) (t : Bytes) : Prop := s = t

/-- `s` is a `sep`-separated list whose elements denote `xs`, in order.  There is always at least one
(possibly empty) element. -/
def DenotesList {α : Type} (sep : UInt8) (D : Bytes → α → Prop) (s : Bytes) (xs : List α) : Prop :=
  ∃ first : Bytes, ∃ rest : List Bytes,
    s = first ++ rest.flatMap (fun p => sep :: p) ∧
    (∀ p ∈ first :: rest, sep ∉ p) ∧
    (first :: rest).length = xs.length ∧
    ∀ q ∈ (first :: rest).zip xs, D q.1 q.2

/-- Reading key `k` of the vector as a `D`-value: `x` is what the last entry denotes if it is
well-formed UTF-8 text that denotes something, and the default otherwise. -/
def Reads {α : Type} (vec : Option (List Bytes)) (k : Bytes) (D : Bytes → α → Prop) (dflt x : α) :
    Prop :=
  (∀ v a, Value vec k v → Utf8 v → D v a → x = a) ∧
  ((¬ ∃ v a, Value vec k v ∧ Utf8 v ∧ D v a) → x = dflt)

/-- Reading key `k` as an optional `D`-value. -/
def ReadsOpt {α : Type} (vec : Option (List Bytes)) (k : Bytes) (D : Bytes → α → Prop)
    (x : Option α) : Prop :=
  ∀ a, x = some a ↔ ∃ v, Value vec k v ∧ Utf8 v ∧ D v a

/-- Key `k` is present, well-formed, and denotes `x`. -/
def Required {α : Type} (vec : Option (List Bytes)) (k : Bytes) (D : Bytes → α → Prop) (x : α) :
    Prop :=
  ∃ v, Value vec k v ∧ Utf8 v ∧ D v x

/-- Comma-separated list of 32-bit unsigned ids. -/
abbrev DenotesIds : Bytes → List Nat → Prop := DenotesList 44 (DenotesU 32)

end SudoPair.Spec
