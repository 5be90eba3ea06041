import Verif.Model.Ip
import Verif.Spec.Ip
import Verif.Props.Boundary
import Verif.Props.Rejection
import Verif.Props.Follow
/-
C89: which texts are read as addresses, and what that means for `network_addrs`.
-/
namespace SudoPair
open Spec Ip

/-! ### Digits -/

theorem snocInduction {α : Type} {P : List α → Prop} (nil : P []) (snoc : ∀ l a, P l → P (l ++ [a])) (l : List α) : P l := by
  rw [← l.reverse_reverse]
  induction l.reverse with
  | nil => exact nil
  | cons a l ih => rw [List.reverse_cons]; exact snoc _ _ ih

theorem toDigit_ten {b : UInt8} {d : Nat} : toDigit 10 b = some d ↔ IsDigit b ∧ d = b.toNat - 48 := by
  unfold toDigit IsDigit
  simp only [UInt8.le_iff_toNat_le, UInt8.reduceToNat]
  split_ifs <;> simp only [Option.some.injEq, reduceCtorEq, false_iff] <;> omega

theorem toDigit_sixteen {b : UInt8} {d : Nat} : toDigit 16 b = some d ↔ HexDigit b d := by
  unfold toDigit HexDigit
  simp only [UInt8.le_iff_toNat_le, UInt8.reduceToNat]
  split_ifs <;> simp only [Option.some.injEq, reduceCtorEq, false_iff] <;> omega

/-- The value of digits. -/
def digitsVal (r : Nat) (v : Nat) (ds : Bytes) : Nat := ds.foldl (fun a b => a * r + (toDigit r b).getD 0) v

/-- The digits that `s` begins with, all of them, are `ds`. -/
def Leading (r : Nat) (ds s : Bytes) (rest : Bytes) : Prop :=
  s = ds ++ rest ∧ (∀ b ∈ ds, toDigit r b ≠ none) ∧ ∀ b, rest.head? = some b → toDigit r b = none

theorem leading_exists (r : Nat) (s : Bytes) : ∃ ds rest, Leading r ds s rest := by
  induction s with
  | nil => exact ⟨[], [], rfl, by simp, by simp⟩
  | cons b s ih =>
    by_cases h : toDigit r b = none
    · exact ⟨[], b :: s, rfl, by simp, by simpa using h⟩
    · obtain ⟨ds, rest, rfl, h1, h2⟩ := ih
      exact ⟨b :: ds, rest, rfl, by simpa [h] using h1, h2⟩

theorem readDigits_leading {r max : Nat} {ds rest : Bytes} (v n : Nat) (hn : n ≤ max)
    (h1 : ∀ b ∈ ds, toDigit r b ≠ none) (h2 : ∀ b, rest.head? = some b → toDigit r b = none) :
    readDigits r max v n (ds ++ rest) =
      if n + ds.length ≤ max then some (digitsVal r v ds, n + ds.length, rest) else none := by
  induction ds generalizing v n with
  | nil =>
    cases rest with
    | nil => simp [readDigits, digitsVal, hn]
    | cons b rest => simp [readDigits, digitsVal, hn, h2 b rfl]
  | cons b ds ih =>
    obtain ⟨d, hd⟩ := Option.ne_none_iff_exists'.1 (h1 b (.head _))
    simp only [List.cons_append, readDigits, hd, List.length_cons]
    by_cases hm : n + 1 > max
    · rw [if_pos hm, if_neg (by omega)]
    · rw [if_neg hm, ih _ _ (by omega) (fun x hx => h1 x (.tail _ hx))]
      have e : n + 1 + ds.length = n + (ds.length + 1) := by omega
      simp only [e, digitsVal, List.foldl_cons, hd, Option.getD_some]

/-- What `read_number` reads: all digits at the beginning, if they are as many as they may be, and denote a number of
the type. -/
theorem readNumber_iff {r max bound v : Nat} {z : Bool} {s rest : Bytes} :
    readNumber r max z bound s = some (v, rest) ↔
      ∃ ds, Leading r ds s rest ∧ ds ≠ [] ∧ ds.length ≤ max ∧ (z = true ∨ ds.head? ≠ some 48 ∨ ds.length = 1) ∧
        v = digitsVal r 0 ds ∧ v ≤ bound := by
  obtain ⟨ds, rest', rfl, h1, h2⟩ := leading_exists r s
  have huniq : ∀ ds2, Leading r ds2 (ds ++ rest') rest → ds2 = ds ∧ rest = rest' := by
    rintro ds2 ⟨e, k1, k2⟩
    rcases List.append_eq_append_iff.1 e with ⟨x, rfl, rfl⟩ | ⟨x, rfl, rfl⟩
    · cases x with
      | nil => simp
      | cons b x => exact absurd (h2 b rfl) (k1 b (by simp))
    · cases x with
      | nil => simp
      | cons b x => exact absurd (k2 b rfl) (h1 b (by simp))
  have hr : (∃ ds2, Leading r ds2 (ds ++ rest') rest ∧ ds2 ≠ [] ∧ ds2.length ≤ max ∧
      (z = true ∨ ds2.head? ≠ some 48 ∨ ds2.length = 1) ∧ v = digitsVal r 0 ds2 ∧ v ≤ bound) ↔
      rest = rest' ∧ ds ≠ [] ∧ ds.length ≤ max ∧ (z = true ∨ ds.head? ≠ some 48 ∨ ds.length = 1) ∧
      v = digitsVal r 0 ds ∧ v ≤ bound := by
    constructor
    · rintro ⟨ds2, hl, h⟩
      obtain ⟨rfl, rfl⟩ := huniq _ hl
      exact ⟨rfl, h⟩
    · rintro ⟨rfl, h⟩
      exact ⟨ds, ⟨rfl, h1, h2⟩, h⟩
  rw [hr]
  unfold readNumber
  rw [readDigits_leading 0 0 (Nat.zero_le _) h1 h2]
  simp only [Nat.zero_add]
  by_cases hl : ds.length ≤ max
  · rw [if_pos hl]
    simp only
    cases ds with
    | nil => simp
    | cons b ds =>
      rw [if_neg (by simp : ¬ (b :: ds).length = 0)]
      by_cases hz : z = true ∨ (b :: ds).head? ≠ some 48 ∨ (b :: ds).length = 1
      · rw [if_neg]
        · by_cases hb : digitsVal r 0 (b :: ds) ≤ bound
          · rw [if_pos hb, Option.some.injEq, Prod.mk.injEq]
            constructor
            · rintro ⟨rfl, rfl⟩; exact ⟨rfl, by simp, hl, hz, rfl, hb⟩
            · rintro ⟨rfl, -, -, -, rfl, -⟩; exact ⟨rfl, rfl⟩
          · rw [if_neg hb]
            simp only [reduceCtorEq, false_iff]
            rintro ⟨-, -, -, -, rfl, h⟩; exact hb h
        · intro hc
          rw [Bool.and_eq_true, Bool.and_eq_true, Bool.not_eq_true', beq_iff_eq, decide_eq_true_eq] at hc
          obtain ⟨⟨k1, k2⟩, k3⟩ := hc
          rcases hz with hz | hz | hz
          · rw [hz] at k1; cases k1
          · exact hz k2
          · omega
      · rw [if_pos]
        · simp only [reduceCtorEq, false_iff]
          rintro ⟨-, -, -, h, -⟩; exact hz h
        · rw [not_or, not_or, not_not] at hz
          rw [Bool.and_eq_true, Bool.and_eq_true, Bool.not_eq_true', beq_iff_eq, decide_eq_true_eq]
          have := hz.2.2
          rw [List.length_cons] at this ⊢
          exact ⟨⟨by simpa using hz.1, hz.2.1⟩, by omega⟩
  · rw [if_neg hl]
    simp only [reduceCtorEq, false_iff]
    rintro ⟨-, -, h, -⟩; exact hl h

theorem digitsVal_snoc (r v : Nat) (ds : Bytes) (b : UInt8) :
    digitsVal r v (ds ++ [b]) = digitsVal r v ds * r + (toDigit r b).getD 0 := by
  simp [digitsVal]

theorem digitsVal_ten {ds : Bytes} (h : ∀ b ∈ ds, toDigit 10 b ≠ none) : digitsVal 10 0 ds = decVal ds := by
  induction ds using snocInduction with
  | nil => rfl
  | snoc ds b ih =>
    obtain ⟨d, hd⟩ := Option.ne_none_iff_exists'.1 (h b (by simp))
    rw [digitsVal_snoc, ih fun x hx => h x (by simp [hx]), hd, (toDigit_ten.1 hd).2]
    simp [decVal]

theorem isDigit_of {b : UInt8} (h : toDigit 10 b ≠ none) : IsDigit b := by
  obtain ⟨d, hd⟩ := Option.ne_none_iff_exists'.1 h
  exact (toDigit_ten.1 hd).1

theorem isDigit_iff {b : UInt8} : toDigit 10 b = none ↔ ¬ IsDigit b := by
  constructor
  · intro h hd
    rw [toDigit_ten.2 ⟨hd, rfl⟩] at h
    cases h
  · intro h
    by_contra hn
    exact h (isDigit_of hn)

theorem foldl_pos (ds : Bytes) (v : Nat) (h : 0 < v) : 0 < ds.foldl (fun a d => a * 10 + (d.toNat - 48)) v := by
  induction ds generalizing v with
  | nil => exact h
  | cons b ds ih => exact ih _ (show 0 < v * 10 + (b.toNat - 48) by omega)

theorem decVal_pos {b : UInt8} {ds : Bytes} (hb : IsDigit b) (h : b ≠ 48) : 0 < decVal (b :: ds) := by
  unfold IsDigit at hb
  have : b.toNat ≠ 48 := fun e => h (UInt8.toNat_inj.1 (by simpa using e))
  exact foldl_pos ds _ (show 0 < 0 * 10 + (b.toNat - 48) by omega)

/-- Digits without a zero at the beginning are the usual notation of their value. -/
theorem canonical {ds : Bytes} (h0 : ds ≠ []) (h : ∀ b ∈ ds, IsDigit b) (hz : ds.head? ≠ some 48 ∨ ds.length = 1) :
    ds = decimal (decVal ds) := by
  rw [← decNat_eq_decimal]
  induction ds using snocInduction with
  | nil => exact absurd rfl h0
  | snoc ds b ih =>
    have hb := h b (by simp)
    unfold IsDigit at hb
    have e : decVal (ds ++ [b]) = decVal ds * 10 + (b.toNat - 48) := by simp [decVal]
    have hb' : UInt8.ofNat (48 + (b.toNat - 48)) = b := by
      rw [show 48 + (b.toNat - 48) = b.toNat by omega, UInt8.ofNat_toNat]
    cases ds with
    | nil =>
      have e1 : decVal ([] ++ [b]) = b.toNat - 48 := by simp [decVal]
      rw [e1, decNat_lt _ (by omega), hb']
      rfl
    | cons a ds =>
      have ha : a ≠ 48 := by
        rcases hz with hz | hz
        · simpa using hz
        · simp at hz
      have hp := decVal_pos (ds := ds) (h a (by simp)) ha
      rw [e, decNat_ge _ (by omega), show (decVal (a :: ds) * 10 + (b.toNat - 48)) / 10 = decVal (a :: ds) by omega,
        show (decVal (a :: ds) * 10 + (b.toNat - 48)) % 10 = b.toNat - 48 by omega, hb',
        ← ih (by simp) (fun x hx => h x (by simp at hx ⊢; tauto)) (.inl (by simpa using ha))]

theorem octet_length : ∀ v < 256, (decimal v).length ≤ 3 ∧ ((decimal v).head? ≠ some 48 ∨ (decimal v).length = 1) := by
  decide +kernel

/-- One number of an IPv4 address. -/
theorem octet_iff {v : Nat} {s rest : Bytes} :
    readNumber 10 3 false 255 s = some (v, rest) ↔
      s = decimal v ++ rest ∧ v < 256 ∧ ∀ b, rest.head? = some b → ¬ IsDigit b := by
  rw [readNumber_iff]
  constructor
  · rintro ⟨ds, ⟨rfl, h1, h2⟩, h3, h4, h5, rfl, h6⟩
    rw [digitsVal_ten h1] at *
    refine ⟨?_, by omega, fun b hb => isDigit_iff.1 (h2 b hb)⟩
    rw [← canonical h3 (fun b hb => isDigit_of (h1 b hb)) (by simpa using h5)]
  · rintro ⟨rfl, hv, h2⟩
    obtain ⟨k1, k2⟩ := decimal_digits v
    have h1 : ∀ b ∈ decimal v, toDigit 10 b ≠ none := fun b hb e => isDigit_iff.1 e (k1 b hb)
    refine ⟨decimal v, ⟨rfl, h1, fun b hb => isDigit_iff.2 (h2 b hb)⟩, ?_, (octet_length v hv).1, .inr (octet_length v hv).2, ?_, by omega⟩
    · rw [← decNat_eq_decimal]; exact decNat_ne_nil v
    · rw [digitsVal_ten h1, k2]

theorem hex_iff {t : Bytes} {v : Nat} :
    Hex t v ↔ t ≠ [] ∧ (∀ b ∈ t, toDigit 16 b ≠ none) ∧ v = digitsVal 16 0 t := by
  constructor
  · intro h
    induction h with
    | one h => rw [← toDigit_sixteen] at h; simp [digitsVal, h]
    | more _ h ih =>
      rw [← toDigit_sixteen] at h
      obtain ⟨i1, i2, rfl⟩ := ih
      refine ⟨by simp, ?_, ?_⟩
      · intro x hx
        rcases List.mem_append.1 hx with hx | hx
        · exact i2 x hx
        · rw [List.mem_singleton.1 hx, h]; simp
      · rw [digitsVal_snoc, h, Option.getD_some]; omega
  · rintro ⟨h0, h1, rfl⟩
    induction t using snocInduction with
    | nil => exact absurd rfl h0
    | snoc t b ih =>
      obtain ⟨d, hd⟩ := Option.ne_none_iff_exists'.1 (h1 b (by simp))
      by_cases ht : t = []
      · subst ht
        have : digitsVal 16 0 ([] ++ [b]) = d := by simp [digitsVal, hd]
        rw [this]
        exact .one (toDigit_sixteen.1 hd)
      · rw [digitsVal_snoc, hd, Option.getD_some, Nat.mul_comm]
        exact .more (ih ht fun x hx => h1 x (by simp [hx])) (toDigit_sixteen.1 hd)

theorem toDigit_lt {r d : Nat} {b : UInt8} (h : toDigit r b = some d) : d < r := by
  unfold toDigit at h
  simp only at h
  split_ifs at h <;> simp_all

theorem digitsVal_lt {t : Bytes} (h1 : ∀ b ∈ t, toDigit 16 b ≠ none) : digitsVal 16 0 t < 16 ^ t.length := by
  induction t using snocInduction with
  | nil => simp [digitsVal]
  | snoc t b ih =>
    obtain ⟨d, hd⟩ := Option.ne_none_iff_exists'.1 (h1 b (by simp))
    have := ih fun x hx => h1 x (by simp [hx])
    have := toDigit_lt hd
    rw [digitsVal_snoc, hd, Option.getD_some, List.length_append, List.length_singleton, Nat.pow_succ]
    omega

theorem group_lt {t : Bytes} {v : Nat} (h : Group t v) : v < 65536 := by
  obtain ⟨h, hl⟩ := h
  obtain ⟨-, h1, rfl⟩ := hex_iff.1 h
  have := digitsVal_lt h1
  have := Nat.pow_le_pow_right (show 0 < 16 by decide) hl
  omega

/-- What ends a group. -/
def NoHex (rest : Bytes) : Prop := ∀ b, rest.head? = some b → ∀ d, ¬ HexDigit b d

theorem noHex_iff {rest : Bytes} : NoHex rest ↔ ∀ b, rest.head? = some b → toDigit 16 b = none := by
  unfold NoHex
  simp only [← toDigit_sixteen, Option.eq_none_iff_forall_ne_some]

/-- One group of an IPv6 address. -/
theorem group_iff {v : Nat} {s rest : Bytes} :
    readNumber 16 4 true 65535 s = some (v, rest) ↔ ∃ t, s = t ++ rest ∧ Group t v ∧ NoHex rest := by
  rw [readNumber_iff]
  constructor
  · rintro ⟨ds, ⟨rfl, h1, h2⟩, h3, h4, -, rfl, -⟩
    exact ⟨ds, rfl, ⟨hex_iff.2 ⟨h3, h1, rfl⟩, h4⟩, noHex_iff.2 h2⟩
  · rintro ⟨t, rfl, h, h2⟩
    have := group_lt h
    obtain ⟨k1, k2, rfl⟩ := hex_iff.1 h.1
    exact ⟨t, ⟨rfl, k2, noHex_iff.1 h2⟩, k1, h.2, .inl rfl, rfl, by omega⟩

/-! ### Addresses -/

/-- What comes before the part with this index. -/
def sepBefore (sep : UInt8) (i : Nat) : Bytes := if i = 0 then [] else [sep]

theorem readSeparator_iff {α : Type} {sep : UInt8} {i : Nat} {f : Bytes → Option (α × Bytes)} {s : Bytes} {x : α × Bytes} :
    readSeparator sep i f s = some x ↔ ∃ u, s = sepBefore sep i ++ u ∧ f u = some x := by
  unfold readSeparator sepBefore
  by_cases hi : i = 0
  · simp [hi]
  · simp only [hi, if_false]
    cases s with
    | nil => simp
    | cons b s =>
      simp only [List.singleton_append, List.cons.injEq]
      constructor
      · intro h
        split_ifs at h with hb
        exact ⟨s, ⟨hb, rfl⟩, h⟩
      · rintro ⟨u, ⟨rfl, rfl⟩, h⟩
        simpa using h

theorem readSeparator_pre {α : Type} (sep : UInt8) (i : Nat) (f : Bytes → Option (α × Bytes)) (u : Bytes) :
    readSeparator sep i f (sepBefore sep i ++ u) = f u := by
  unfold readSeparator sepBefore
  by_cases hi : i = 0 <;> simp [hi]

/-- What `read_ipv4_addr` reads. -/
theorem readV4_iff {os : List Nat} {s rest : Bytes} :
    readV4 s = some (os, rest) ↔
      ∃ a b c d t, os = [a, b, c, d] ∧ s = t ++ rest ∧ Quad t a b c d ∧ ∀ x, rest.head? = some x → ¬ IsDigit x := by
  have hdot : ¬ IsDigit 46 := by unfold IsDigit; decide
  unfold readV4
  constructor
  · intro h
    simp only [readOctets] at h
    split at h
    · cases h
    · rename_i a s1 h1
      split at h
      · cases h
      · rename_i l1 r1 e1
        split at e1
        · cases e1
        · rename_i b s2 h2
          split at e1
          · cases e1
          · rename_i l2 r2 e2
            split at e2
            · cases e2
            · rename_i c s3 h3
              split at e2
              · cases e2
              · rename_i l3 r3 e3
                split at e3
                · cases e3
                · rename_i d s4 h4
                  simp only [Option.some.injEq, Prod.mk.injEq] at e3 e2 e1 h
                  obtain ⟨rfl, rfl⟩ := e3
                  obtain ⟨rfl, rfl⟩ := e2
                  obtain ⟨rfl, rfl⟩ := e1
                  obtain ⟨rfl, rfl⟩ := h
                  simp only [readSeparator_iff, octet_iff, sepBefore] at h1 h2 h3 h4
                  obtain ⟨_, rfl, rfl, ha, -⟩ := h1
                  obtain ⟨_, rfl, rfl, hb, -⟩ := h2
                  obtain ⟨_, rfl, rfl, hc, -⟩ := h3
                  obtain ⟨_, rfl, rfl, hd, hr⟩ := h4
                  exact ⟨a, b, c, d, _, rfl, by simp, ⟨rfl, ha, hb, hc, hd⟩, hr⟩
  · rintro ⟨a, b, c, d, t, rfl, rfl, ⟨rfl, ha, hb, hc, hd⟩, hr⟩
    have h1 : ∀ r : Bytes, ∀ x, (46 :: r).head? = some x → ¬ IsDigit x := by
      intro r x hx
      simp only [List.head?_cons, Option.some.injEq] at hx
      exact hx ▸ hdot
    have g0 (v r) (hv : v < 256) (hr : ∀ x, r.head? = some x → ¬ IsDigit x) :
        readSeparator 46 0 (readNumber 10 3 false 255) (decimal v ++ r) = some (v, r) :=
      readSeparator_iff.2 ⟨_, by simp [sepBefore], octet_iff.2 ⟨rfl, hv, hr⟩⟩
    have g1 (i v r) (hi : i ≠ 0) (hv : v < 256) (hr : ∀ x, r.head? = some x → ¬ IsDigit x) :
        readSeparator 46 i (readNumber 10 3 false 255) (46 :: (decimal v ++ r)) = some (v, r) :=
      readSeparator_iff.2 ⟨_, by simp [sepBefore, hi], octet_iff.2 ⟨rfl, hv, hr⟩⟩
    simp only [List.append_assoc, List.cons_append, readOctets]
    rw [g0 a _ ha (h1 _)]
    simp only
    rw [g1 _ b _ (by decide) hb (h1 _)]
    simp only
    rw [g1 _ c _ (by decide) hc (h1 _)]
    simp only
    rw [g1 _ d _ (by decide) hd hr]

theorem hexDigit_digit {b : UInt8} (h : IsDigit b) : HexDigit b (b.toNat - 48) := .inl ⟨h.1, h.2, rfl⟩

theorem group_hex {t : Bytes} {v : Nat} (h : Group t v) : ∀ b ∈ t, ∃ d, HexDigit b d := by
  intro b hb
  obtain ⟨d, hd⟩ := Option.ne_none_iff_exists'.1 ((hex_iff.1 h.1).2.1 b hb)
  exact ⟨d, toDigit_sixteen.1 hd⟩

theorem group_ne {t : Bytes} {v : Nat} (h : Group t v) : t ≠ [] := (hex_iff.1 h.1).1

theorem not_hex_dot (d : Nat) : ¬ HexDigit 46 d := by simp [HexDigit]
theorem not_hex_colon (d : Nat) : ¬ HexDigit 58 d := by simp [HexDigit]

/-- A group is not the beginning of an IPv4 address. -/
theorem group_not_v4 {t rest : Bytes} {v : Nat} (h : Group t v) (h1 : NoHex rest) (h2 : rest.head? ≠ some 46) :
    readV4 (t ++ rest) = none := by
  rw [Option.eq_none_iff_forall_ne_some]
  rintro ⟨os, r⟩ e
  obtain ⟨a, b, c, d, q, rfl, e, ⟨rfl, -⟩, -⟩ := readV4_iff.1 e
  simp only [List.append_assoc, List.cons_append] at e
  rcases List.append_eq_append_iff.1 e with ⟨y, hy, e'⟩ | ⟨y, hy, e'⟩
  · cases y with
    | nil => rw [e'] at h2; exact h2 rfl
    | cons x y =>
      refine h1 x (by rw [e']; rfl) _ (hexDigit_digit ((decimal_digits a).1 x ?_))
      rw [hy]; simp
  · cases y with
    | nil => rw [List.nil_append] at e'; rw [← e'] at h2; exact h2 rfl
    | cons x y =>
      simp only [List.cons_append, List.cons.injEq] at e'
      obtain ⟨d, hd⟩ := group_hex h 46 (by rw [hy, ← e'.1]; simp)
      exact not_hex_dot d hd

theorem colon_not_v4 (s : Bytes) : readV4 (58 :: s) = none := by
  rw [Option.eq_none_iff_forall_ne_some]
  rintro ⟨os, r⟩ e
  obtain ⟨a, b, c, d, q, rfl, e, ⟨rfl, -⟩, -⟩ := readV4_iff.1 e
  have hd := decimal_digits a
  have hne : decimal a ≠ [] := by rw [← decNat_eq_decimal]; exact decNat_ne_nil a
  cases hda : decimal a with
  | nil => exact hne hda
  | cons x y =>
    rw [hda] at e
    simp only [List.cons_append, List.cons.injEq] at e
    have := hd.1 x (by rw [hda]; simp)
    rw [← e.1] at this
    revert this; unfold IsDigit; decide

theorem colon_not_group (s : Bytes) : readNumber 16 4 true 65535 (58 :: s) = none := by
  rw [Option.eq_none_iff_forall_ne_some]
  rintro ⟨v, r⟩ e
  obtain ⟨t, e, h, -⟩ := group_iff.1 e
  cases t with
  | nil => exact group_ne h rfl
  | cons x t =>
    simp only [List.cons_append, List.cons.injEq] at e
    obtain ⟨d, hd⟩ := group_hex h x (by simp)
    rw [← e.1] at hd
    exact not_hex_colon d hd

/-- What `read_groups` has read. -/
theorem readGroups_sound {k i : Nat} {s r : Bytes} {gs : List Nat} {v4 : Bool} (h : readGroups k i s = (gs, v4, r)) :
    (gs = [] ∧ v4 = false ∧ r = s) ∨
    ∃ u, s = sepBefore 58 i ++ u ++ r ∧ gs.length ≤ k ∧ Closing u gs ∧ (v4 = false → Groups u gs) := by
  induction k generalizing i s gs v4 r with
  | zero =>
    simp only [readGroups, Prod.mk.injEq] at h
    obtain ⟨rfl, rfl, rfl⟩ := h
    exact .inl ⟨rfl, rfl, rfl⟩
  | succ k ih =>
    rw [readGroups] at h
    split at h
    · rename_i os s' e
      simp only [Prod.mk.injEq] at h
      obtain ⟨rfl, rfl, rfl⟩ := h
      split_ifs at e with hk
      obtain ⟨u, rfl, e1⟩ := readSeparator_iff.1 e
      obtain ⟨a, b, c, d, t, rfl, rfl, hq, -⟩ := readV4_iff.1 e1
      refine .inr ⟨t, by simp, by simp [pairs]; omega, ?_, by simp⟩
      simp only [pairs, Nat.mul_comm _ 256]
      exact .quad hq
    · split at h
      · rename_i g s' e
        simp only [Prod.mk.injEq] at h
        obtain ⟨rfl, rfl, rfl⟩ := h
        obtain ⟨u, rfl, e1⟩ := readSeparator_iff.1 e
        obtain ⟨t, rfl, hg, -⟩ := group_iff.1 e1
        rcases ih (i := i + 1) (s := s') rfl with ⟨h1, h2, h3⟩ | ⟨w, h1, h2, h3, h4⟩
        · refine .inr ⟨t, by rw [h3]; simp, by rw [h1]; simp, ?_, fun _ => ?_⟩
          · rw [h1]; exact .one hg
          · rw [h1]; exact .one hg
        · refine .inr ⟨t ++ 58 :: w, ?_, by simp only [List.length_cons]; omega, .more hg h3, fun hv => .more hg (h4 hv)⟩
          conv_lhs => rw [h1]
          simp [sepBefore]
      · simp only [Prod.mk.injEq] at h
        obtain ⟨rfl, rfl, rfl⟩ := h
        exact .inl ⟨rfl, rfl, rfl⟩

/-- Where the reading of groups stops. -/
def Ends (rest : Bytes) : Prop := rest = [] ∨ ∃ x, rest = 58 :: 58 :: x

theorem ends_noHex {rest : Bytes} (h : Ends rest) : NoHex rest ∧ rest.head? ≠ some 46 := by
  rcases h with rfl | ⟨x, rfl⟩
  · exact ⟨by simp [NoHex], by simp⟩
  · exact ⟨by simp [NoHex, not_hex_colon], by simp⟩

theorem empty_not_v4 : readV4 [] = none := by decide +kernel
theorem empty_not_group : readNumber 16 4 true 65535 [] = none := by decide +kernel

theorem readGroups_ends {rest : Bytes} (h : Ends rest) (k i : Nat) : readGroups k i rest = ([], false, rest) := by
  have key {α : Type} (f : Bytes → Option (α × Bytes)) (h0 : f [] = none) (h1 : ∀ x, f (58 :: x) = none) :
      readSeparator 58 i f rest = none := by
    rcases h with rfl | ⟨x, rfl⟩
    · unfold readSeparator; split <;> simp [h0]
    · unfold readSeparator; split <;> simp [h1]
  cases k with
  | zero => rfl
  | succ k =>
    rw [readGroups, key _ empty_not_v4 colon_not_v4, key _ empty_not_group colon_not_group]
    simp

/-- One step of `read_groups` over a group. -/
theorem readGroups_group {t rest : Bytes} {v : Nat} (h : Group t v) (h1 : NoHex rest) (h2 : rest.head? ≠ some 46) (k i : Nat) :
    readGroups (k + 1) i (sepBefore 58 i ++ (t ++ rest)) =
      (v :: (readGroups k (i + 1) rest).1, (readGroups k (i + 1) rest).2.1, (readGroups k (i + 1) rest).2.2) := by
  rw [readGroups, readSeparator_pre, readSeparator_pre, group_not_v4 h h1 h2, group_iff.2 ⟨t, rfl, h, h1⟩]
  simp

theorem readGroups_groups {u rest : Bytes} {gs : List Nat} (h : Groups u gs) (he : Ends rest) :
    ∀ k i, gs.length ≤ k → readGroups k i (sepBefore 58 i ++ (u ++ rest)) = (gs, false, rest) := by
  induction h with
  | one h =>
    intro k i hk
    obtain ⟨k, rfl⟩ : ∃ j, k = j + 1 := ⟨k - 1, by simp at hk; omega⟩
    rw [readGroups_group h (ends_noHex he).1 (ends_noHex he).2, readGroups_ends he]
  | @more t v u gs h _ ih =>
    intro k i hk
    obtain ⟨k, rfl⟩ : ∃ j, k = j + 1 := ⟨k - 1, by simp at hk; omega⟩
    have := ih k (i + 1) (by simpa using hk)
    simp only [sepBefore, Nat.add_one_ne_zero, if_false, List.singleton_append] at this
    rw [List.append_assoc, List.cons_append, readGroups_group h (by simp [NoHex, not_hex_colon]) (by simp), this]

theorem readGroups_closing {u : Bytes} {gs : List Nat} (h : Closing u gs) :
    ∀ k i, gs.length ≤ k → ∃ v4, readGroups k i (sepBefore 58 i ++ u) = (gs, v4, []) := by
  have he : Ends [] := .inl rfl
  induction h with
  | one h =>
    intro k i hk
    obtain ⟨k, rfl⟩ : ∃ j, k = j + 1 := ⟨k - 1, by simp at hk; omega⟩
    have := readGroups_group h (ends_noHex he).1 (ends_noHex he).2 k i
    rw [List.append_nil, readGroups_ends he] at this
    exact ⟨_, this⟩
  | @quad t a b c d h =>
    intro k i hk
    obtain ⟨k, rfl⟩ : ∃ j, k = j + 1 := ⟨k - 1, by simp at hk; omega⟩
    have hv : readV4 t = some ([a, b, c, d], []) := readV4_iff.2 ⟨a, b, c, d, t, rfl, by simp, h, by simp⟩
    refine ⟨true, ?_⟩
    rw [readGroups, if_pos (by simp at hk; omega), readSeparator_pre, hv]
    simp [pairs, Nat.mul_comm]
  | @more t v u gs h _ ih =>
    intro k i hk
    obtain ⟨k, rfl⟩ : ∃ j, k = j + 1 := ⟨k - 1, by simp at hk; omega⟩
    obtain ⟨v4, this⟩ := ih k (i + 1) (by simpa using hk)
    simp only [sepBefore, Nat.add_one_ne_zero, if_false, List.singleton_append] at this
    refine ⟨v4, ?_⟩
    rw [readGroups_group h (by simp [NoHex, not_hex_colon]) (by simp), this]

theorem readV6_iff {s : Bytes} {gs : List Nat} : readV6 s = some (gs, []) ↔ V6 s gs := by
  unfold readV6 V6
  constructor
  · intro h
    rcases hh : readGroups 8 0 s with ⟨hs, v4, r⟩
    rw [hh] at h
    simp only at h
    have hsound := readGroups_sound hh
    split_ifs at h with h8 hv
    · simp only [Option.some.injEq, Prod.mk.injEq] at h
      obtain ⟨rfl, rfl⟩ := h
      rcases hsound with ⟨rfl, -⟩ | ⟨u, rfl, -, hc, -⟩
      · cases h8
      · exact .inl ⟨by simpa [sepBefore] using hc, h8⟩
    · split at h
      · rename_i s' 
        rcases ht : readGroups (8 - (hs.length + 1)) 0 s' with ⟨us, v4', r'⟩
        rw [ht] at h
        simp only [Option.some.injEq, Prod.mk.injEq] at h
        obtain ⟨rfl, rfl⟩ := h
        have hhead : ∃ u, s = u ++ 58 :: 58 :: s' ∧ (u = [] ∧ hs = [] ∨ Groups u hs) ∧ hs.length ≤ 7 := by
          rcases hsound with ⟨rfl, -, hr⟩ | ⟨u, hs', hl, -, hg⟩
          · exact ⟨[], hr.symm, .inl ⟨rfl, rfl⟩, by simp⟩
          · exact ⟨u, by simpa [sepBefore] using hs', .inr (hg (by simpa using hv)), by omega⟩
        obtain ⟨u, rfl, hu, hl⟩ := hhead
        have htail : (s' = [] ∧ us = [] ∨ Closing s' us) ∧ hs.length + us.length ≤ 7 := by
          rcases readGroups_sound ht with ⟨rfl, -, hr⟩ | ⟨w, hw, hl', hc, -⟩
          · exact ⟨.inl ⟨hr.symm, rfl⟩, by simpa using hl⟩
          · rw [show s' = w by simpa [sepBefore] using hw]
            exact ⟨.inr hc, by omega⟩
        refine .inr ⟨u, hs, s', us, hu, htail.1, htail.2, rfl, ?_⟩
        rw [Nat.sub_sub]
      · cases h
  · rintro (⟨hc, hl⟩ | ⟨h, hs, u, us, hh, hu, hl, rfl, rfl⟩)
    · obtain ⟨v4, e⟩ := readGroups_closing hc 8 0 (by omega)
      rw [show s = sepBefore 58 0 ++ s by simp [sepBefore], e]
      simp [hl]
    · have e : readGroups 8 0 (h ++ 58 :: 58 :: u) = (hs, false, 58 :: 58 :: u) := by
        rcases hh with ⟨rfl, rfl⟩ | hh
        · exact readGroups_ends (.inr ⟨u, rfl⟩) 8 0
        · have := readGroups_groups hh (.inr ⟨u, rfl⟩) 8 0 (by omega)
          simpa [sepBefore] using this
      have e' : ∃ v4, readGroups (8 - (hs.length + 1)) 0 u = (us, v4, []) := by
        rcases hu with ⟨rfl, rfl⟩ | hu
        · exact ⟨_, readGroups_ends (.inl rfl) _ 0⟩
        · obtain ⟨v4, e⟩ := readGroups_closing hu (8 - (hs.length + 1)) 0 (by omega)
          exact ⟨v4, by simpa [sepBefore] using e⟩
      obtain ⟨v4, e'⟩ := e'
      rw [e]
      simp only
      rw [if_neg (by omega), e']
      simp [Nat.sub_sub]

theorem v6_not_v4 {s : Bytes} {gs : List Nat} (h : V6 s gs) : readV4 s = none := by
  have hc (x : Bytes) : NoHex (58 :: x) ∧ (58 :: x).head? ≠ some 46 := ⟨by simp [NoHex, not_hex_colon], by simp⟩
  rcases h with ⟨h, hl⟩ | ⟨h, hs, u, us, hh, -, -, rfl, -⟩
  · cases h with
    | one h => simp at hl
    | quad h => simp at hl
    | more h _ => exact group_not_v4 h (hc _).1 (hc _).2
  · rcases hh with ⟨rfl, rfl⟩ | hh
    · exact colon_not_v4 _
    · cases hh with
      | one h => exact group_not_v4 h (hc _).1 (hc _).2
      | more h _ =>
        rw [List.append_assoc]
        exact group_not_v4 h (hc _).1 (hc _).2

/-- C89: a text is read as an address exactly if it is one, in dotted decimal or in the notation of RFC 4291; and as that
address. -/
theorem C89_address (t addr : Bytes) : ipAddr t = some addr ↔ DenotesIp t addr := by
  unfold ipAddr DenotesIp
  constructor
  · intro h
    split at h
    · rename_i os r e
      split_ifs at h with hr
      subst hr
      obtain ⟨a, b, c, d, t', rfl, rfl, hq, -⟩ := readV4_iff.1 e
      simp only [Option.some.injEq] at h
      exact .inl ⟨a, b, c, d, by simpa using hq, h.symm⟩
    · split at h
      · rename_i gs r e
        split_ifs at h with hr
        subst hr
        simp only [Option.some.injEq] at h
        exact .inr ⟨gs, readV6_iff.1 e, h.symm⟩
      · cases h
  · rintro (⟨a, b, c, d, hq, rfl⟩ | ⟨gs, h, rfl⟩)
    · rw [readV4_iff.2 ⟨a, b, c, d, t, rfl, (List.append_nil t).symm, hq, by simp⟩]
      rfl
    · rw [v6_not_v4 h, readV6_iff.2 h]
      rfl

/-- C89: no text denotes two addresses. -/
theorem C89_unique {t x y : Bytes} (hx : DenotesIp t x) (hy : DenotesIp t y) : x = y := by
  rw [← C89_address] at hx hy
  exact Option.some.inj (hx.symm.trans hy)

/-! ### The characters of addresses -/

/-- A character of an address. -/
def AddrChar (b : UInt8) : Prop := (∃ d, HexDigit b d) ∨ b = 46 ∨ b = 58

theorem decimal_addr {n : Nat} {b : UInt8} (h : b ∈ decimal n) : AddrChar b :=
  .inl ⟨_, hexDigit_digit ((decimal_digits n).1 b h)⟩

theorem quad_addr {t : Bytes} {a b c d : Nat} (h : Quad t a b c d) : ∀ x ∈ t, AddrChar x := by
  obtain ⟨rfl, -⟩ := h
  intro x hx
  simp only [List.mem_append, List.mem_cons] at hx
  rcases hx with hx | rfl | hx | rfl | hx | rfl | hx
  all_goals first | exact decimal_addr hx | exact .inr (.inl rfl)

theorem closing_addr {t : Bytes} {gs : List Nat} (h : Closing t gs) : ∀ x ∈ t, AddrChar x := by
  induction h with
  | one h => exact fun x hx => .inl (group_hex h x hx)
  | quad h => exact quad_addr h
  | more h _ ih =>
    intro x hx
    simp only [List.mem_append, List.mem_cons] at hx
    rcases hx with hx | rfl | hx
    · exact .inl (group_hex h x hx)
    · exact .inr (.inr rfl)
    · exact ih x hx

theorem groups_closing {t : Bytes} {gs : List Nat} (h : Groups t gs) : Closing t gs := by
  induction h with
  | one h => exact .one h
  | more h _ ih => exact .more h ih

theorem denotesIp_addr {t x : Bytes} (h : DenotesIp t x) : ∀ b ∈ t, AddrChar b := by
  rcases h with ⟨_, _, _, _, h, -⟩ | ⟨gs, ⟨h, -⟩ | ⟨h, hs, u, us, hh, hu, -, rfl, -⟩, -⟩
  · exact quad_addr h
  · exact closing_addr h
  · intro b hb
    simp only [List.mem_append, List.mem_cons] at hb
    rcases hb with hb | rfl | rfl | hb
    · rcases hh with ⟨rfl, -⟩ | hh
      · cases hb
      · exact closing_addr (groups_closing hh) b hb
    · exact .inr (.inr rfl)
    · exact .inr (.inr rfl)
    · rcases hu with ⟨rfl, -⟩ | hu
      · cases hb
      · exact closing_addr hu b hb

theorem addrChar_range {b : UInt8} (h : AddrChar b) : b.toNat ≤ 127 ∧ b ≠ 32 ∧ b ≠ 47 := by
  have : b.toNat ≤ 127 ∧ b.toNat ≠ 32 ∧ b.toNat ≠ 47 := by
    rcases h with ⟨d, h⟩ | rfl | rfl
    · unfold HexDigit at h; omega
    · decide
    · decide
  exact ⟨this.1, fun e => this.2.1 (by rw [e]; rfl), fun e => this.2.2 (by rw [e]; rfl)⟩

/-! ### `network_addrs` -/

theorem denotesNet_iff {e : Bytes} {n : NetAddr} : DenotesNet ipAddr e n ↔ NetText e n := by
  unfold DenotesNet NetText
  simp only [C89_address]
  constructor
  · rintro ⟨a, m, h, -, h1, h2⟩
    exact ⟨a, m, h, h1, h2⟩
  · rintro ⟨a, m, h, h1, h2⟩
    exact ⟨a, m, h, fun hm => (addrChar_range (denotesIp_addr h1 _ hm)).2.2 rfl, h1, h2⟩

theorem netText_chars {e : Bytes} {n : NetAddr} (h : NetText e n) : ∀ b ∈ e, b.toNat ≤ 127 ∧ b ≠ 32 := by
  obtain ⟨a, m, rfl, h1, h2⟩ := h
  intro b hb
  simp only [List.mem_append, List.mem_cons] at hb
  rcases hb with hb | rfl | hb
  · have := addrChar_range (denotesIp_addr h1 b hb); exact ⟨this.1, this.2.1⟩
  · decide
  · have := addrChar_range (denotesIp_addr h2 b hb); exact ⟨this.1, this.2.1⟩

/-- C89: any number of addresses with their netmasks, with spaces between them, is read as just that. -/
theorem C89_list {vec : Option (List Bytes)} {v first : Bytes} {rest : List Bytes} {ns : List NetAddr}
    (hv : Value vec (b! "network_addrs") v) (he : v = first ++ rest.flatMap (fun p => 32 :: p))
    (hl : (first :: rest).length = ns.length) (hn : ∀ q ∈ (first :: rest).zip ns, NetText q.1 q.2) :
    getNetAddrs ipAddr (.fromRaw vec) = some ns := by
  have hd : DenotesList 32 (DenotesNet ipAddr) v ns := by
    refine ⟨first, rest, he, ?_, hl, fun q hq => denotesNet_iff.2 (hn q hq)⟩
    intro p hp hm
    obtain ⟨i, hi, rfl⟩ := List.getElem_of_mem hp
    have hz : ((first :: rest)[i], ns[i]'(hl ▸ hi)) ∈ (first :: rest).zip ns := by
      have h2 : i < ((first :: rest).zip ns).length := by simp only [List.length_zip]; omega
      have := List.getElem_mem h2
      rwa [List.getElem_zip] at this
    exact (netText_chars (hn _ hz) _ hm).2 rfl
  have hu : Utf8 v := utf8_of_ascii
    (denotesList_ascii (by decide) (fun e x h b hb => (netText_chars (denotesNet_iff.1 h) b hb).1) hd)
  unfold getNetAddrs
  rw [(getStr_iff ..).2 ⟨hv, hu⟩]
  simp only [parseNetAddrs_ok.2 hd]

/-- C89: the conversion crashes exactly if the value is UTF-8 and some element is an address without a netmask, and all
elements before it are in order. -/
theorem C89_crash (vec : Option (List Bytes)) :
    getNetAddrs ipAddr (.fromRaw vec) = none ↔
      ∃ (v first : Bytes) (rest pre post : List Bytes) (e : Bytes), Value vec (b! "network_addrs") v ∧ Utf8 v ∧
        v = first ++ rest.flatMap (fun p => 32 :: p) ∧ (∀ p ∈ first :: rest, (32 : UInt8) ∉ p) ∧
        first :: rest = pre ++ e :: post ∧ (∀ p ∈ pre, ∃ n, NetText p n) ∧ ∃ x, DenotesIp e x := by
  rw [C36_boundary]
  simp only [denotesNet_iff, Option.ne_none_iff_exists', C89_address]
  constructor
  · rintro ⟨v, f, r, pre, post, e, h1, h2, h3, h4, h5, h6, -, h8⟩
    exact ⟨v, f, r, pre, post, e, h1, h2, h3, h4, h5, h6, h8⟩
  · rintro ⟨v, f, r, pre, post, e, h1, h2, h3, h4, h5, h6, x, h8⟩
    exact ⟨v, f, r, pre, post, e, h1, h2, h3, h4, h5, h6, fun hm => (addrChar_range (denotesIp_addr h8 _ hm)).2.2 rfl,
      x, h8⟩

/-- C36 is false of every address: alone, without a netmask, it crashes the conversion. -/
theorem C36_alone {t x : Bytes} (h : DenotesIp t x) :
    getNetAddrs ipAddr (.fromRaw (some [b! "network_addrs=" ++ t])) = none := by
  have hc := denotesIp_addr h
  have hv : Value (some [b! "network_addrs=" ++ t]) (b! "network_addrs") t :=
    ⟨[], _, [], rfl, .inl ⟨by simp, by decide⟩, by simp⟩
  refine (C89_crash _).2 ⟨t, t, [], [], [], t, hv, utf8_of_ascii fun b hb => (addrChar_range (hc b hb)).1, by simp, ?_,
    rfl, by simp, x, h⟩
  intro p hp hm
  obtain rfl := List.mem_singleton.1 hp
  exact (addrChar_range (hc _ hm)).2.1 rfl

/-- C89, `open`: a list in the documented form, addresses with netmasks, does not crash it. -/
theorem C89_documented {rt : Rt} {a : OpenArgs} (hrt : rt.parseIp = ipAddr)
    (hd : ∀ v, Value a.settings (b! "network_addrs") v →
      ∃ ps, Pieces 32 v ps ∧ ∀ p ∈ ps, ∃ n, NetText p n) : IoEnv.new rt a ≠ none := by
  rw [Ne, C64_crash]
  rintro ⟨-, -, hn⟩
  rw [hrt, ← getNetAddrs_none, C89_crash] at hn
  obtain ⟨v, first, rest, pre, post, e, hv, -, he, hs, hl, -, x, hx⟩ := hn
  obtain ⟨ps, ⟨f, r, rfl, he', hs'⟩, hp⟩ := hd v hv
  have h1 := splitOn_eq_cons.2 ⟨he, hs⟩
  have h2 := splitOn_eq_cons.2 ⟨he', hs'⟩
  obtain ⟨n, u, m, rfl, -, -⟩ := hp e (by rw [← h2, h1, hl]; simp)
  exact (addrChar_range (denotesIp_addr hx 47 (by simp))).2.2 rfl

/-- C89, `open`: an address without a netmask, after elements that are in order, is answered by -1 before anything is
done or said, whoever the user is. -/
theorem C89_refused {rt : Rt} {a : OpenArgs} {v e x : Bytes} {pre post : List Bytes} (hrt : rt.parseIp = ipAddr)
    (hver : ¬ TooOld a.version) (hset : ∀ d ∈ settingsDemands a.settings, d.Met)
    (hv : Value a.settings (b! "network_addrs") v) (hu : Utf8 v) (hs : Pieces 32 v (pre ++ e :: post))
    (hp : ∀ p ∈ pre, ∃ n, NetText p n) (he : DenotesIp e x) (st : State) (s : Sched) :
    Core.open rt a st s = (.ok (-1, st), [], s) := by
  have hn : IoEnv.new rt a = none := by
    obtain ⟨f, r, hl, hv', hno⟩ := hs
    rw [C64_crash]
    refine ⟨hver, hset, ?_⟩
    rw [hrt, ← getNetAddrs_none, C89_crash]
    exact ⟨v, f, r, pre, post, e, hv, hu, hv', hl ▸ hno, hl.symm, hp, x, he⟩
  rw [coreOpen_none hn]
  rfl

/-! ### Every address has a text -/

theorem flatMap_two {gs : List Nat} {f : Nat → List UInt8} (hf : ∀ g, (f g).length = 2) :
    (gs.flatMap f).length = 2 * gs.length := by
  induction gs with
  | nil => rfl
  | cons g gs ih => rw [List.flatMap_cons, List.length_append, hf, ih, List.length_cons]; omega

theorem v6_length {t : Bytes} {gs : List Nat} (h : V6 t gs) : gs.length = 8 := by
  rcases h with ⟨-, h⟩ | ⟨h, hs, u, us, -, -, hl, rfl, rfl⟩
  · exact h
  · simp; omega

/-- C89: an address has four bytes, and then there is just one way to write it, or sixteen. -/
theorem C89_bytes {t x : Bytes} (h : DenotesIp t x) :
    (x.length = 4 ∨ x.length = 16) ∧ (x.length = 4 → ∀ t', DenotesIp t' x → t' = t) := by
  have h16 {gs : List Nat} {t} (h : V6 t gs) :
      (gs.flatMap fun g => [UInt8.ofNat (g / 256), UInt8.ofNat (g % 256)]).length = 16 := by
    rw [flatMap_two (fun _ => rfl), v6_length h]
  have inj {a b : Nat} (ha : a < 256) (hb : b < 256) (e : UInt8.ofNat a = UInt8.ofNat b) : a = b := by
    have := congrArg UInt8.toNat e
    simpa [UInt8.toNat_ofNat, Nat.mod_eq_of_lt ha, Nat.mod_eq_of_lt hb] using this
  constructor
  · rcases h with ⟨_, _, _, _, -, rfl⟩ | ⟨gs, h, rfl⟩
    · exact .inl rfl
    · exact .inr (h16 h)
  · intro hl t' h'
    rcases h with ⟨a, b, c, d, ⟨rfl, ha, hb, hc, hd⟩, rfl⟩ | ⟨gs, h, rfl⟩
    · rcases h' with ⟨a', b', c', d', ⟨rfl, ha', hb', hc', hd'⟩, e⟩ | ⟨gs, h, e⟩
      · simp only [List.cons.injEq, and_true] at e
        rw [inj ha ha' e.1, inj hb hb' e.2.1, inj hc hc' e.2.2.1, inj hd hd' e.2.2.2]
      · have := h16 h
        rw [← e] at this
        cases this
    · rw [h16 h] at hl; cases hl

/-- The hexadecimal digit of a number below 16. -/
def hexChar (n : Nat) : UInt8 := if n < 10 then UInt8.ofNat (48 + n) else UInt8.ofNat (87 + n)

theorem hexChar_digit : ∀ n < 16, toDigit 16 (hexChar n) = some n := by decide

theorem group_text {g : Nat} (h : g < 65536) :
    Group [hexChar (g / 4096), hexChar (g / 256 % 16), hexChar (g / 16 % 16), hexChar (g % 16)] g := by
  refine ⟨hex_iff.2 ⟨by simp, ?_, ?_⟩, by simp⟩
  · intro b hb
    simp only [List.mem_cons, List.not_mem_nil, or_false] at hb
    rcases hb with rfl | rfl | rfl | rfl <;> rw [hexChar_digit _ (by omega)] <;> simp
  · simp only [digitsVal, List.foldl_cons, List.foldl_nil]
    rw [hexChar_digit _ (by omega), hexChar_digit _ (by omega), hexChar_digit _ (by omega), hexChar_digit _ (by omega)]
    simp only [Option.getD_some]
    omega

theorem closing_text {gs : List Nat} (h0 : gs ≠ []) (h : ∀ g ∈ gs, g < 65536) : ∃ t, Closing t gs := by
  induction gs with
  | nil => exact absurd rfl h0
  | cons g gs ih =>
    have hg := group_text (h g (by simp))
    by_cases hn : gs = []
    · exact ⟨_, by rw [hn]; exact .one hg⟩
    · obtain ⟨t, ht⟩ := ih hn (fun x hx => h x (by simp [hx]))
      exact ⟨_, .more hg ht⟩

/-- C89: every address can be written. -/
theorem C89_all {x : Bytes} (h : x.length = 4 ∨ x.length = 16) : ∃ t, DenotesIp t x := by
  have hb (b : UInt8) : b.toNat < 256 := b.toNat_lt
  rcases h with h | h
  · match x, h with
    | [a, b, c, d], _ =>
      exact ⟨_, .inl ⟨a.toNat, b.toNat, c.toNat, d.toNat, ⟨rfl, hb a, hb b, hb c, hb d⟩, by simp⟩⟩
  · have key : ∀ n (x : Bytes), x.length = 2 * n → ∃ gs : List Nat, gs.length = n ∧ (∀ g ∈ gs, g < 65536) ∧
        x = gs.flatMap fun g => [UInt8.ofNat (g / 256), UInt8.ofNat (g % 256)] := by
      intro n
      induction n with
      | zero => intro x h; exact ⟨[], rfl, by simp, by simpa using h⟩
      | succ n ih =>
        intro x h
        match x, h with
        | a :: b :: x, h =>
          obtain ⟨gs, h1, h2, h3⟩ := ih x (by simp only [List.length_cons] at h; omega)
          have ha := hb a
          have hb' := hb b
          refine ⟨(a.toNat * 256 + b.toNat) :: gs, by simp [h1], ?_, ?_⟩
          · intro g hg
            rcases List.mem_cons.1 hg with rfl | hg
            · omega
            · exact h2 g hg
          · rw [List.flatMap_cons, ← h3, show (a.toNat * 256 + b.toNat) / 256 = a.toNat by omega,
              show (a.toNat * 256 + b.toNat) % 256 = b.toNat by omega]
            simp
    obtain ⟨gs, h1, h2, rfl⟩ := key 8 x h
    obtain ⟨t, ht⟩ := closing_text (by rintro rfl; cases h1) h2
    exact ⟨t, .inr ⟨gs, .inl ⟨ht, h1⟩, rfl⟩⟩

/-! ### Examples -/

/-- Addresses as sudo sends them, and texts that are none: leading zeros, five groups without `::`, `::` twice, `::` for
nothing, an IPv4 address before `::`. -/
example : DenotesIp (b! "10.0.0.1") [10, 0, 0, 1] ∧ DenotesIp (b! "255.255.255.0") [255, 255, 255, 0] ∧
    DenotesIp (b! "fe80::1") ([0xfe, 0x80] ++ List.replicate 13 0 ++ [1]) ∧ DenotesIp (b! "::") (List.replicate 16 0) ∧
    DenotesIp (b! "::FFFF:1.2.3.4") (List.replicate 10 0 ++ [255, 255, 1, 2, 3, 4]) ∧
    (∀ t ∈ [b! "010.0.0.1", b! "1.2.3", b! "1.2.3.256", b! "1:2:3:4:5", b! "1::2::3", b! "1:2:3:4:5:6:7:8::",
      b! "1.2.3.4::", b! "12345::", b! ":::", b! "", b! "fe80::1%eth0"], ∀ x, ¬ DenotesIp t x) := by
  simp only [← C89_address]
  refine ⟨by decide +kernel, by decide +kernel, by decide +kernel, by decide +kernel, by decide +kernel, ?_⟩
  intro t ht x e
  have : ∀ t ∈ [b! "010.0.0.1", b! "1.2.3", b! "1.2.3.256", b! "1:2:3:4:5", b! "1::2::3", b! "1:2:3:4:5:6:7:8::",
      b! "1.2.3.4::", b! "12345::", b! ":::", b! "", b! "fe80::1%eth0"], ipAddr t = none := by decide +kernel
  rw [this t ht] at e
  cases e

/-- Two interfaces, as in `C89_list`; and the same with a netmask missing, as in `C89_crash`. -/
example :
    getNetAddrs ipAddr (.fromRaw (some [b! "network_addrs=10.0.0.1/255.0.0.0 ::1/ffff::"])) =
      some [⟨[10, 0, 0, 1], [255, 0, 0, 0]⟩, ⟨List.replicate 15 0 ++ [1], [255, 255] ++ List.replicate 14 0⟩] ∧
    getNetAddrs ipAddr (.fromRaw (some [b! "network_addrs=10.0.0.1/255.0.0.0 ::1"])) = none := by
  decide +kernel

/-- What `C89_refused` and `C89_documented` say, of the sample session with the user's interfaces added. -/
example :
    let rt := { sampleRt with parseIp := ipAddr }
    let a (l : Bytes) := { sampleArgs with settings := sampleArgs.settings.map (· ++ [b! "network_addrs=" ++ l]) }
    IoEnv.new rt (a (b! "10.0.0.1/255.0.0.0 ::1")) = none ∧
    (Core.open rt (a (b! "10.0.0.1/255.0.0.0 ::1")) Core.init (List.replicate 60 (coop 121))).2.1 = [] ∧
    retOf (Core.open rt (a (b! "10.0.0.1/255.0.0.0 ::1")) Core.init (List.replicate 60 (coop 121))).1 = some (-1) ∧
    retOf (Core.open rt (a (b! "10.0.0.1/255.0.0.0 ::1/ffff::")) Core.init (List.replicate 60 (coop 121))).1 = some 1 := by
  decide +kernel

end SudoPair
