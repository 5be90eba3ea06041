import Verif.Model.Parse
/-
`<IpAddr as FromStr>::from_str`, which `NetAddr::from_sudo_option` calls (sudo_plugin/src/options/settings.rs:330-331).
This is code of the standard library, not of the repository: core/src/net/parser.rs as of Rust 1.53 and later (earlier
versions also read numbers with leading zeros in IPv4 addresses).  Elsewhere the function is a parameter (`Rt.parseIp`);
`ipAddr` is what to put in its place.  An address is modelled by its bytes, the most significant first.

A parser returns what it read and the rest of the input; where it fails, `read_atomically` has put the input back.
-/
namespace SudoPair.Ip

/-- `char::to_digit` for a radix up to 16. -/
def toDigit (radix : Nat) (b : UInt8) : Option Nat :=
  let d :=
    if 48 ≤ b ∧ b ≤ 57 then b.toNat - 48
    else if 97 ≤ b ∧ b ≤ 102 then b.toNat - 87
    else if 65 ≤ b ∧ b ≤ 70 then b.toNat - 55
    else radix
  if d < radix then some d else none

/-- The loop of `read_number`: the value, the count of digits and the rest; `none` as soon as there are too many. -/
def readDigits (radix max : Nat) : Nat → Nat → Bytes → Option (Nat × Nat × Bytes)
  | v, n, []     => some (v, n, [])
  | v, n, b :: s =>
    match toDigit radix b with
    | none   => some (v, n, b :: s)
    | some d => if n + 1 > max then none else readDigits radix max (v * radix + d) (n + 1) s

/-- `Parser::read_number` for an integer type with largest value `bound`. -/
def readNumber (radix max : Nat) (allowZeroPrefix : Bool) (bound : Nat) (s : Bytes) : Option (Nat × Bytes) :=
  match readDigits radix max 0 0 s with
  | none => none
  | some (v, n, r) =>
    if n = 0 then none
    else if !allowZeroPrefix && s.head? == some 48 && n > 1 then none
    else if v ≤ bound then some (v, r) else none

/-- `Parser::read_separator`. -/
def readSeparator {α : Type} (sep : UInt8) (index : Nat) (inner : Bytes → Option (α × Bytes)) (s : Bytes) :
    Option (α × Bytes) :=
  if index = 0 then inner s
  else match s with
    | b :: s => if b = sep then inner s else none
    | []     => none

/-- The loop of `read_ipv4_addr`, from the octet `index`, with `k` to go. -/
def readOctets : (k index : Nat) → Bytes → Option (List Nat × Bytes)
  | 0, _, s         => some ([], s)
  | k + 1, index, s =>
    match readSeparator 46 index (readNumber 10 3 false 255) s with
    | none        => none
    | some (a, s) => match readOctets k (index + 1) s with
      | none         => none
      | some (as, s) => some (a :: as, s)

/-- `Parser::read_ipv4_addr`. -/
def readV4 (s : Bytes) : Option (List Nat × Bytes) := readOctets 4 0 s

/-- The groups that hold the octets of an IPv4 address. -/
def pairs : List Nat → List Nat
  | a :: b :: l => (a * 256 + b) :: pairs l
  | l           => l

/-- `read_groups` of `read_ipv6_addr`, from the group `index`, with room for `k` more: the groups, whether an IPv4
address was read, and the rest. -/
def readGroups : (k index : Nat) → Bytes → List Nat × Bool × Bytes
  | 0, _, s         => ([], false, s)
  | k + 1, index, s =>
    match if 0 < k then readSeparator 58 index readV4 s else none with
    | some (os, s) => (pairs os, true, s)
    | none =>
      match readSeparator 58 index (readNumber 16 4 true 65535) s with
      | some (g, s) =>
        let r := readGroups k (index + 1) s
        (g :: r.1, r.2.1, r.2.2)
      | none => ([], false, s)

/-- `Parser::read_ipv6_addr`. -/
def readV6 (s : Bytes) : Option (List Nat × Bytes) :=
  let h := readGroups 8 0 s
  if h.1.length = 8 then some (h.1, h.2.2)
  else if h.2.1 then none
  else match h.2.2 with
    | 58 :: 58 :: s =>
      let t := readGroups (8 - (h.1.length + 1)) 0 s
      some (h.1 ++ List.replicate (8 - h.1.length - t.1.length) 0 ++ t.1, t.2.2)
    | _ => none

/-- `IpAddr::from_str`: `read_ip_addr`, and nothing may be left (`parse_with`). -/
def ipAddr (s : Bytes) : Option Bytes :=
  match readV4 s with
  | some (os, r) => if r = [] then some (os.map UInt8.ofNat) else none
  | none         => match readV6 s with
    | some (gs, r) =>
      if r = [] then some (gs.flatMap fun g => [UInt8.ofNat (g / 256), UInt8.ofNat (g % 256)]) else none
    | none => none

end SudoPair.Ip
