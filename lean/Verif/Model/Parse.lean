import Verif.Model.Bytes
/-
Parsing of option values: sudo_plugin/src/options/traits.rs, and the std functions it calls.
-/
namespace SudoPair

/-- A UTF-8 continuation byte. -/
def isCont (b : UInt8) : Bool := 0x80 ≤ b && b ≤ 0xBF

/-- `str::from_utf8(b).is_ok()` (option_map.rs:120).  Models std's `run_utf8_validation`: the byte
ranges are those of its `match (first, next)` table. -/
def utf8Valid : Bytes → Bool
  | [] => true
  | [a] => a ≤ 0x7F
  | [a, b] =>
    if a ≤ 0x7F then utf8Valid [b]
    else 0xC2 ≤ a && a ≤ 0xDF && isCont b
  | [a, b, c] =>
    if a ≤ 0x7F then utf8Valid [b, c]
    else if a ≤ 0xDF then 0xC2 ≤ a && isCont b && utf8Valid [c]
    else three a b && isCont c
  | a :: b :: c :: d :: rest =>
    if a ≤ 0x7F then utf8Valid (b :: c :: d :: rest)
    else if a ≤ 0xDF then 0xC2 ≤ a && isCont b && utf8Valid (c :: d :: rest)
    else if a ≤ 0xEF then three a b && isCont c && utf8Valid (d :: rest)
    else four a b && isCont c && isCont d && utf8Valid rest
where
  /-- Admissible first two bytes of a three-byte sequence. -/
  three (a b : UInt8) : Bool :=
    (a = 0xE0 && 0xA0 ≤ b && b ≤ 0xBF) || (0xE1 ≤ a && a ≤ 0xEC && isCont b) ||
    (a = 0xED && 0x80 ≤ b && b ≤ 0x9F) || (0xEE ≤ a && a ≤ 0xEF && isCont b)
  /-- Admissible first two bytes of a four-byte sequence. -/
  four (a b : UInt8) : Bool :=
    (a = 0xF0 && 0x90 ≤ b && b ≤ 0xBF) || (0xF1 ≤ a && a ≤ 0xF3 && isCont b) ||
    (a = 0xF4 && 0x80 ≤ b && b ≤ 0x8F)

/-- The value of an ASCII digit. -/
def digit? (b : UInt8) : Option Nat :=
  if 48 ≤ b ∧ b ≤ 57 then some (b.toNat - 48) else none

/-- The digit loop of std's `from_str_radix(10)`: accumulate, failing on a non-digit and as soon as
the accumulator exceeds `max` (checked arithmetic). -/
def digits (max : Nat) : Nat → Bytes → Option Nat
  | acc, []      => some acc
  | acc, b :: bs => do
    let d ← digit? b
    if acc * 10 + d ≤ max then digits max (acc * 10 + d) bs else none

/-- `<uN as FromStr>::from_str` (traits.rs:45-51, 62-68, 78-84, 94-100): optional `+`, then at least
one digit. -/
def parseUInt (bits : Nat) (s : Bytes) : Option Nat :=
  match s with
  | []        => none
  | [43]      => none
  | [45]      => none
  | 43 :: ds  => digits (2 ^ bits - 1) 0 ds
  | ds        => digits (2 ^ bits - 1) 0 ds

/-- `<iN as FromStr>::from_str` (traits.rs:37-43, 53-59, 70-76, 86-92): optional `+` or `-`. -/
def parseInt (bits : Nat) (s : Bytes) : Option Int :=
  match s with
  | []        => none
  | [43]      => none
  | [45]      => none
  | 43 :: ds  => (digits (2 ^ (bits - 1) - 1) 0 ds).map Int.ofNat
  | 45 :: ds  => (digits (2 ^ (bits - 1)) 0 ds).map (fun n => - Int.ofNat n)
  | ds        => (digits (2 ^ (bits - 1) - 1) 0 ds).map Int.ofNat

/-- `<bool as FromStr>::from_str` (traits.rs:29-35). -/
def parseBool (s : Bytes) : Option Bool :=
  if s = b! "true" then some true
  else if s = b! "false" then some false
  else none

/-- `String::from_str` / `PathBuf::from` (traits.rs:102-116): never fail. -/
def parseStr (s : Bytes) : Option Bytes := some s

/-- The element loop of `Vec<T>::from_sudo_option` (traits.rs:128-135): stop at the first error. -/
def parseAll {α : Type} (p : Bytes → Option α) : List Bytes → Option (List α)
  | []      => some []
  | e :: es => do
    let x ← p e
    let xs ← parseAll p es
    pure (x :: xs)

/-- `Vec<T>::from_sudo_option` and `HashSet<T>::from_sudo_option` (traits.rs:118-148) with the default
separator `','` (traits.rs:150-156).  A `HashSet` is modelled by the list of its elements, used
only through membership. -/
def parseList {α : Type} (p : Bytes → Option α) (s : Bytes) : Option (List α) :=
  parseAll p (splitOn 44 s)

/-- `NetAddr` (settings.rs:311-315). `IpAddr` values are modelled by an opaque byte string. -/
structure NetAddr where
  addr : Bytes
  mask : Bytes
  deriving DecidableEq, Repr

/-- Result of a computation that may fail or panic. -/
inductive PR (α : Type) where
  | ok (a : α)
  | err
  | panic
  deriving DecidableEq, Repr

/-- Position of the first occurrence of `b`, as `(before, after)`; `None` if absent. Models
`bytes.iter().position(|b| *b == SEP)` followed by slicing around it. -/
def splitFirst (sep : UInt8) : Bytes → Option (Bytes × Bytes)
  | []      => none
  | b :: bs =>
    if b = sep then some ([], bs)
    else (splitFirst sep bs).map (fun (k, v) => (b :: k, v))

/-- `NetAddr::from_sudo_option` (settings.rs:324-337).  Without a `/`, `mid = bytes.len()`, so
`s[mid + 1 ..]` is out of bounds and panics - but only after the address part parsed. -/
def parseNetAddr (parseIp : Bytes → Option Bytes) (s : Bytes) : PR NetAddr :=
  match splitFirst 47 s with
  | some (a, m) =>
    match parseIp a with
    | none   => .err
    | some a => match parseIp m with
      | none   => .err
      | some m => .ok ⟨a, m⟩
  | none =>
    match parseIp s with
    | none   => .err
    | some _ => .panic

/-- The element loop of `Vec<NetAddr>::from_sudo_option` (traits.rs:128-135). -/
def parseNetAll (parseIp : Bytes → Option Bytes) : List Bytes → PR (List NetAddr)
  | []      => .ok []
  | e :: es =>
    match parseNetAddr parseIp e with
    | .panic => .panic
    | .err   => .err
    | .ok x  => match parseNetAll parseIp es with
      | .panic => .panic
      | .err   => .err
      | .ok xs => .ok (x :: xs)

/-- `Vec<NetAddr>::from_sudo_option`; the separator is a space (settings.rs:340-342). -/
def parseNetAddrs (parseIp : Bytes → Option Bytes) (s : Bytes) : PR (List NetAddr) :=
  parseNetAll parseIp (splitOn 32 s)

end SudoPair
