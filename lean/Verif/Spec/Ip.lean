import Verif.Spec.Text
import Verif.Model.Parse
/-
How addresses are written: four decimal numbers with dots between them (RFC 6943, section 3.1.1, strict form), and the
notation of RFC 4291, section 2.2.
-/
namespace SudoPair.Spec

/-- The text of an IPv4 address: numbers below 256 in the usual decimal notation. -/
def Quad (t : Bytes) (a b c d : Nat) : Prop :=
  t = decimal a ++ 46 :: (decimal b ++ 46 :: (decimal c ++ 46 :: decimal d)) ∧ a < 256 ∧ b < 256 ∧ c < 256 ∧ d < 256

/-- A hexadecimal digit and its value. -/
def HexDigit (b : UInt8) (d : Nat) : Prop :=
  (48 ≤ b.toNat ∧ b.toNat ≤ 57 ∧ d = b.toNat - 48) ∨ (97 ≤ b.toNat ∧ b.toNat ≤ 102 ∧ d = b.toNat - 97 + 10) ∨
  (65 ≤ b.toNat ∧ b.toNat ≤ 70 ∧ d = b.toNat - 65 + 10)

/-- A hexadecimal number and its value. -/
inductive Hex : Bytes → Nat → Prop
  | one {b d} : HexDigit b d → Hex [b] d
  | more {t v b d} : Hex t v → HexDigit b d → Hex (t ++ [b]) (16 * v + d)

/-- One group of an IPv6 address: up to four hexadecimal digits. -/
def Group (t : Bytes) (v : Nat) : Prop := Hex t v ∧ t.length ≤ 4

/-- Groups with colons between them; there is at least one. -/
inductive Groups : Bytes → List Nat → Prop
  | one {t v} : Group t v → Groups t [v]
  | more {t v u gs} : Group t v → Groups u gs → Groups (t ++ 58 :: u) (v :: gs)

/-- The same, but the last two groups may be written as an IPv4 address. -/
inductive Closing : Bytes → List Nat → Prop
  | one {t v} : Group t v → Closing t [v]
  | quad {t a b c d} : Quad t a b c d → Closing t [256 * a + b, 256 * c + d]
  | more {t v u gs} : Group t v → Closing u gs → Closing (t ++ 58 :: u) (v :: gs)

/-- The text of an IPv6 address: eight groups, or fewer with `::` once for the zeros that are missing, of which there is
at least one group. -/
def V6 (t : Bytes) (gs : List Nat) : Prop :=
  (Closing t gs ∧ gs.length = 8) ∨
  ∃ h hs u us, (h = [] ∧ hs = [] ∨ Groups h hs) ∧ (u = [] ∧ us = [] ∨ Closing u us) ∧ hs.length + us.length ≤ 7 ∧
    t = h ++ 58 :: 58 :: u ∧ gs = hs ++ List.replicate (8 - (hs.length + us.length)) 0 ++ us

/-- The text denotes the address with these bytes. -/
def DenotesIp (t addr : Bytes) : Prop :=
  (∃ a b c d, Quad t a b c d ∧ addr = [UInt8.ofNat a, UInt8.ofNat b, UInt8.ofNat c, UInt8.ofNat d]) ∨
  (∃ gs, V6 t gs ∧ addr = gs.flatMap fun g => [UInt8.ofNat (g / 256), UInt8.ofNat (g % 256)])

/-- An element of `network_addrs`: address and netmask with a slash between them. -/
def NetText (e : Bytes) (n : NetAddr) : Prop :=
  ∃ a m, e = a ++ 47 :: m ∧ DenotesIp a n.addr ∧ DenotesIp m n.mask

end SudoPair.Spec
