import Verif.Model.Version
import Verif.Model.Env
/-
C35 (and the arithmetic part of C10): sudo API version words.
-/
namespace SudoPair

/-- Numeric value of a packed word. -/
theorem mkVersion_toNat {a b : BitVec 32} (ha : a.toNat < 65536) (hb : b.toNat < 65536) :
    (mkVersion a b).toNat = a.toNat * 65536 + b.toNat := by
  unfold mkVersion
  rw [BitVec.toNat_or, BitVec.toNat_shiftLeft]
  have h1 : a.toNat <<< 16 % 2 ^ 32 = a.toNat <<< 16 := by
    rw [Nat.shiftLeft_eq]; omega
  rw [h1, ← Nat.shiftLeft_add_eq_or_of_lt (by omega : b.toNat < 2 ^ 16), Nat.shiftLeft_eq]

theorem getMajor_toNat (v : BitVec 32) : (getMajor v).toNat = v.toNat / 65536 := by
  unfold getMajor
  rw [BitVec.toNat_ushiftRight, Nat.shiftRight_eq_div_pow]

theorem getMinor_toNat (v : BitVec 32) : (getMinor v).toNat = v.toNat % 65536 := by
  unfold getMinor
  rw [BitVec.toNat_and]
  exact Nat.and_two_pow_sub_one_eq_mod v.toNat 16

theorem intoFfi_toNat (v : Version) : v.intoFfi.toNat = v.major.toNat * 65536 + v.minor.toNat := by
  have h1 := v.major.isLt
  have h2 := v.minor.isLt
  unfold Version.intoFfi
  rw [mkVersion_toNat] <;> simp <;> omega

theorem fromFfi_major (v : BitVec 32) : (Version.fromFfi v).major.toNat = v.toNat / 65536 := by
  have := v.isLt
  simp only [Version.fromFfi, BitVec.toNat_setWidth, getMajor_toNat]; omega

theorem fromFfi_minor (v : BitVec 32) : (Version.fromFfi v).minor.toNat = v.toNat % 65536 := by
  simp only [Version.fromFfi, BitVec.toNat_setWidth, getMinor_toNat]; omega

/-- C35: unpacking a packed version gives it back. -/
theorem C35_unpack_pack (v : Version) : Version.fromFfi v.intoFfi = v := by
  have h1 := v.major.isLt
  have h2 := v.minor.isLt
  cases v with
  | mk major minor =>
    have e1 : (Version.fromFfi (Version.intoFfi ⟨major, minor⟩)).major = major :=
      BitVec.eq_of_toNat_eq (by rw [fromFfi_major, intoFfi_toNat]; simp only at *; omega)
    have e2 : (Version.fromFfi (Version.intoFfi ⟨major, minor⟩)).minor = minor :=
      BitVec.eq_of_toNat_eq (by rw [fromFfi_minor, intoFfi_toNat]; simp only at *; omega)
    calc Version.fromFfi (Version.intoFfi ⟨major, minor⟩)
        = ⟨(Version.fromFfi (Version.intoFfi ⟨major, minor⟩)).major,
           (Version.fromFfi (Version.intoFfi ⟨major, minor⟩)).minor⟩ := rfl
      _ = ⟨major, minor⟩ := by rw [e1, e2]

/-- C35: every 32-bit word is the packing of its components. -/
theorem C35_pack_unpack (v : BitVec 32) : (Version.fromFfi v).intoFfi = v := by
  apply BitVec.eq_of_toNat_eq
  rw [intoFfi_toNat, fromFfi_major, fromFfi_minor]
  omega

/-- C35: the raw functions of sudo_plugin-sys: packing 16-bit components is injective and its
components can be read back. -/
theorem C35_sys_roundtrip (a b : BitVec 32) (ha : a.toNat < 65536) (hb : b.toNat < 65536) :
    getMajor (mkVersion a b) = a ∧ getMinor (mkVersion a b) = b := by
  constructor <;> apply BitVec.eq_of_toNat_eq
  · rw [getMajor_toNat, mkVersion_toNat ha hb]; omega
  · rw [getMinor_toNat, mkVersion_toNat ha hb]; omega

/-- C35: comparing packed words is comparing (major, minor) lexicographically. -/
theorem C35_monotone (a b : Version) :
    a.intoFfi < b.intoFfi ↔
      a.major.toNat < b.major.toNat ∨ (a.major.toNat = b.major.toNat ∧ a.minor.toNat < b.minor.toNat) := by
  have h1 := a.minor.isLt
  have h2 := b.minor.isLt
  rw [BitVec.lt_def, intoFfi_toNat, intoFfi_toNat]
  omega

/-- C35: the comparison used by the version check is that order. -/
theorem C35_ge (a b : Version) : Version.ge a b = true ↔ b.intoFfi ≤ a.intoFfi := by
  have h1 := a.minor.isLt
  have h2 := b.minor.isLt
  rw [BitVec.le_def, intoFfi_toNat, intoFfi_toNat]
  simp only [Version.ge, Bool.or_eq_true, Bool.and_eq_true, decide_eq_true_eq, BitVec.lt_def,
    BitVec.le_def, ← BitVec.toNat_inj]
  omega

/-- Non-vacuity: carries between the components. -/
example : (Version.intoFfi ⟨1, 65535⟩) < (Version.intoFfi ⟨2, 0⟩) ∧
    mkVersion 1 17 = 0x10011#32 ∧ Version.fromFfi 0x10011#32 = ⟨1, 17⟩ := by decide

/-- C10 (arithmetic part): the version check accepts a word iff it is at least 1.9, numerically. -/
theorem C10_check (v : BitVec 32) :
    (∃ x, IoEnv.checkVersion v = .ok x) ↔ 1 * 65536 + 9 ≤ v.toNat := by
  have hs : (Version.fromFfi v).supported = true ↔ 65545 ≤ v.toNat := by
    unfold Version.supported
    rw [C35_ge, BitVec.le_def, C35_pack_unpack]
    rw [intoFfi_toNat]; simp [Version.minimum]
  unfold IoEnv.checkVersion
  split
  · rename_i h; simp only [hs] at h; simp; omega
  · rename_i h; simp only [hs] at h; simp; omega

/-- C10: … equivalently iff its (major, minor) is lexicographically at least (1, 9). -/
theorem C10_check_components (v : BitVec 32) :
    (∃ x, IoEnv.checkVersion v = .ok x) ↔
      1 < v.toNat / 65536 ∨ (v.toNat / 65536 = 1 ∧ 9 ≤ v.toNat % 65536) := by
  rw [C10_check]; omega

example : (∃ x, IoEnv.checkVersion 0x10009#32 = .ok x) ∧ ¬ (∃ x, IoEnv.checkVersion 0x10008#32 = .ok x) := by
  rw [C10_check, C10_check]; decide

end SudoPair
