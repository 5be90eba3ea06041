import Verif.Model.Parse
import Verif.Spec.Text
/-
`utf8Valid` accepts exactly the encodings of sequences of Unicode scalar values.
-/
namespace SudoPair

theorem le_lit (a b : UInt8) : (decide (a ≤ b)) = decide (a.toNat ≤ b.toNat) := by
  simp [UInt8.le_iff_toNat_le]

theorem isCont_iff (b : UInt8) : isCont b = true ↔ 128 ≤ b.toNat ∧ b.toNat ≤ 191 := by
  simp [isCont, UInt8.le_iff_toNat_le]

theorem eq_lit (a b : UInt8) : a = b ↔ a.toNat = b.toNat := UInt8.toNat_inj.symm

theorem three_iff (a b : UInt8) : utf8Valid.three a b = true ↔
    224 ≤ a.toNat ∧ a.toNat ≤ 239 ∧ 128 ≤ b.toNat ∧ b.toNat ≤ 191 ∧
    (a.toNat = 224 → 160 ≤ b.toNat) ∧ (a.toNat = 237 → b.toNat ≤ 159) := by
  simp only [utf8Valid.three, Bool.or_eq_true, Bool.and_eq_true, decide_eq_true_eq,
    UInt8.le_iff_toNat_le, isCont_iff, eq_lit]
  simp only [show (0xE0 : UInt8).toNat = 224 from rfl, show (0xA0 : UInt8).toNat = 160 from rfl,
    show (0xBF : UInt8).toNat = 191 from rfl, show (0xE1 : UInt8).toNat = 225 from rfl,
    show (0xEC : UInt8).toNat = 236 from rfl, show (0xED : UInt8).toNat = 237 from rfl,
    show (0x80 : UInt8).toNat = 128 from rfl, show (0x9F : UInt8).toNat = 159 from rfl,
    show (0xEE : UInt8).toNat = 238 from rfl, show (0xEF : UInt8).toNat = 239 from rfl]
  omega

theorem four_iff (a b : UInt8) : utf8Valid.four a b = true ↔
    240 ≤ a.toNat ∧ a.toNat ≤ 244 ∧ 128 ≤ b.toNat ∧ b.toNat ≤ 191 ∧
    (a.toNat = 240 → 144 ≤ b.toNat) ∧ (a.toNat = 244 → b.toNat ≤ 143) := by
  simp only [utf8Valid.four, Bool.or_eq_true, Bool.and_eq_true, decide_eq_true_eq,
    UInt8.le_iff_toNat_le, isCont_iff, eq_lit]
  simp only [show (0xF0 : UInt8).toNat = 240 from rfl, show (0x90 : UInt8).toNat = 144 from rfl,
    show (0xBF : UInt8).toNat = 191 from rfl, show (0xF1 : UInt8).toNat = 241 from rfl,
    show (0xF3 : UInt8).toNat = 243 from rfl, show (0xF4 : UInt8).toNat = 244 from rfl,
    show (0x80 : UInt8).toNat = 128 from rfl, show (0x8F : UInt8).toNat = 143 from rfl]
  omega

theorem utf8Valid_1 {a : UInt8} {r : Bytes} (h : a.toNat ≤ 127) :
    utf8Valid (a :: r) = utf8Valid r := by
  have h' : a ≤ 0x7F := UInt8.le_iff_toNat_le.2 h
  match r with
  | [] => simp [utf8Valid, h']
  | [_] => simp [utf8Valid, h']
  | [_, _] => simp [utf8Valid, h']
  | _ :: _ :: _ :: _ => rw [utf8Valid]; simp [h']

theorem utf8Valid_2 {a b : UInt8} {r : Bytes} (h1 : 194 ≤ a.toNat) (h2 : a.toNat ≤ 223)
    (h3 : isCont b = true) : utf8Valid (a :: b :: r) = utf8Valid r := by
  have h : ¬ a ≤ 0x7F := fun h => by
    have := UInt8.le_iff_toNat_le.1 h
    rw [show (0x7F : UInt8).toNat = 127 from rfl] at this; omega
  have h1' : (0xC2 : UInt8) ≤ a := UInt8.le_iff_toNat_le.2 h1
  have h2' : a ≤ (0xDF : UInt8) := UInt8.le_iff_toNat_le.2 h2
  match r with
  | [] => simp [utf8Valid, h, h1', h2', h3]
  | [_] => simp [utf8Valid, h, h1', h2', h3]
  | _ :: _ :: _ => rw [utf8Valid]; simp [h, h1', h2', h3]

theorem utf8Valid_3 {a b c : UInt8} {r : Bytes} (h1 : utf8Valid.three a b = true)
    (h3 : isCont c = true) : utf8Valid (a :: b :: c :: r) = utf8Valid r := by
  have hh := (three_iff a b).1 h1
  have h : ¬ a ≤ 0x7F := fun h => by
    have := UInt8.le_iff_toNat_le.1 h
    rw [show (0x7F : UInt8).toNat = 127 from rfl] at this; omega
  have h' : ¬ a ≤ 0xDF := fun h => by
    have := UInt8.le_iff_toNat_le.1 h
    rw [show (0xDF : UInt8).toNat = 223 from rfl] at this; omega
  have h2' : a ≤ (0xEF : UInt8) := UInt8.le_iff_toNat_le.2 hh.2.1
  match r with
  | [] => simp [utf8Valid, h, h', h1, h3]
  | _ :: _ => rw [utf8Valid]; simp [h, h', h2', h1, h3]

theorem utf8Valid_4 {a b c d : UInt8} {r : Bytes} (h1 : utf8Valid.four a b = true)
    (h3 : isCont c = true) (h4 : isCont d = true) :
    utf8Valid (a :: b :: c :: d :: r) = utf8Valid r := by
  have hh := (four_iff a b).1 h1
  have h : ¬ a ≤ 0x7F := fun h => by
    have := UInt8.le_iff_toNat_le.1 h
    rw [show (0x7F : UInt8).toNat = 127 from rfl] at this; omega
  have h' : ¬ a ≤ 0xDF := fun h => by
    have := UInt8.le_iff_toNat_le.1 h
    rw [show (0xDF : UInt8).toNat = 223 from rfl] at this; omega
  have h'' : ¬ a ≤ 0xEF := fun h => by
    have := UInt8.le_iff_toNat_le.1 h
    rw [show (0xEF : UInt8).toNat = 239 from rfl] at this; omega
  rw [utf8Valid]; simp [h, h', h'', h1, h3, h4]

/-- The encodings in terms of byte values. -/
theorem encode_cases (c : Char) :
    (∃ a, String.utf8EncodeChar c = [a] ∧ a.toNat ≤ 127) ∨
    (∃ a b, String.utf8EncodeChar c = [a, b] ∧ 194 ≤ a.toNat ∧ a.toNat ≤ 223 ∧ isCont b = true) ∨
    (∃ a b d, String.utf8EncodeChar c = [a, b, d] ∧ utf8Valid.three a b = true ∧ isCont d = true) ∨
    (∃ a b d e, String.utf8EncodeChar c = [a, b, d, e] ∧ utf8Valid.four a b = true ∧
      isCont d = true ∧ isCont e = true) := by
  have hv := c.valid
  unfold String.utf8EncodeChar
  simp only [UInt32.isValidChar, Nat.isValidChar] at hv
  generalize c.val.toNat = v at hv ⊢
  simp only
  split
  · left; refine ⟨_, rfl, ?_⟩; simp; omega
  split
  · right; left
    refine ⟨_, _, rfl, ?_, ?_, ?_⟩
    · simp; omega
    · simp; omega
    · rw [isCont_iff]; simp; omega
  split
  · right; right; left
    refine ⟨_, _, _, rfl, ?_, ?_⟩
    · rw [three_iff]; simp; omega
    · rw [isCont_iff]; simp; omega
  · right; right; right
    refine ⟨_, _, _, _, rfl, ?_, ?_, ?_⟩
    · rw [four_iff]; simp; omega
    · rw [isCont_iff]; simp; omega
    · rw [isCont_iff]; simp; omega

theorem utf8Valid_encode (c : Char) (r : Bytes) :
    utf8Valid (String.utf8EncodeChar c ++ r) = utf8Valid r := by
  rcases encode_cases c with ⟨a, h, h1⟩ | ⟨a, b, h, h1, h2, h3⟩ | ⟨a, b, d, h, h1, h2⟩ |
    ⟨a, b, d, e, h, h1, h2, h3⟩ <;> rw [h]
  · exact utf8Valid_1 h1
  · exact utf8Valid_2 h1 h2 h3
  · exact utf8Valid_3 h1 h2
  · exact utf8Valid_4 h1 h2 h3

/-- The scalar value `v` as a character. -/
def mkChar (v : Nat) (h : v < 55296 ∨ 57343 < v ∧ v < 1114112) : Char :=
  ⟨UInt32.ofNatLT v (by have : UInt32.size = 4294967296 := rfl; omega), by
    simpa [UInt32.isValidChar, Nat.isValidChar] using h⟩

theorem mkChar_toNat (v : Nat) (h) : (mkChar v h).val.toNat = v := by simp [mkChar]

theorem byte_eq {n : Nat} {a : UInt8} (h : n = a.toNat) : UInt8.ofNat n = a := by
  subst h; simp

theorem decode_1 {a : UInt8} (h : a.toNat ≤ 127) : ∃ c, String.utf8EncodeChar c = [a] := by
  refine ⟨mkChar a.toNat (by omega), ?_⟩
  unfold String.utf8EncodeChar
  rw [mkChar_toNat]
  simp [h]

theorem decode_2 {a b : UInt8} (h1 : 194 ≤ a.toNat) (h2 : a.toNat ≤ 223) (h3 : isCont b = true) :
    ∃ c, String.utf8EncodeChar c = [a, b] := by
  rw [isCont_iff] at h3
  refine ⟨mkChar ((a.toNat - 192) * 64 + (b.toNat - 128)) (by omega), ?_⟩
  unfold String.utf8EncodeChar
  rw [mkChar_toNat]
  simp only
  rw [if_neg (by omega), if_pos (by omega), byte_eq (a := a) (by omega), byte_eq (a := b) (by omega)]

theorem decode_3 {a b c : UInt8} (h1 : utf8Valid.three a b = true) (h3 : isCont c = true) :
    ∃ ch, String.utf8EncodeChar ch = [a, b, c] := by
  rw [isCont_iff] at h3
  rw [three_iff] at h1
  refine ⟨mkChar ((a.toNat - 224) * 4096 + (b.toNat - 128) * 64 + (c.toNat - 128)) (by omega), ?_⟩
  unfold String.utf8EncodeChar
  rw [mkChar_toNat]
  simp only
  rw [if_neg (by omega), if_neg (by omega), if_pos (by omega), byte_eq (a := a) (by omega),
    byte_eq (a := b) (by omega), byte_eq (a := c) (by omega)]

theorem decode_4 {a b c d : UInt8} (h1 : utf8Valid.four a b = true) (h3 : isCont c = true)
    (h4 : isCont d = true) : ∃ ch, String.utf8EncodeChar ch = [a, b, c, d] := by
  rw [isCont_iff] at h3 h4
  rw [four_iff] at h1
  refine ⟨mkChar ((a.toNat - 240) * 262144 + (b.toNat - 128) * 4096 + (c.toNat - 128) * 64 +
    (d.toNat - 128)) (by omega), ?_⟩
  unfold String.utf8EncodeChar
  rw [mkChar_toNat]
  simp only
  rw [if_neg (by omega), if_neg (by omega), if_neg (by omega), byte_eq (a := a) (by omega),
    byte_eq (a := b) (by omega), byte_eq (a := c) (by omega), byte_eq (a := d) (by omega)]

theorem le_toNat {a b : UInt8} : a ≤ b ↔ a.toNat ≤ b.toNat := UInt8.le_iff_toNat_le

/-- A non-empty valid string starts with an encoded character. -/
theorem utf8Valid_step (a : UInt8) (bs : Bytes) (h : utf8Valid (a :: bs) = true) :
    ∃ c r, a :: bs = String.utf8EncodeChar c ++ r := by
  have hfin : ∀ {x : Bytes} {r : Bytes}, (∃ c, String.utf8EncodeChar c = x) →
      ∃ c r', x ++ r = String.utf8EncodeChar c ++ r' := by
    rintro x r ⟨c, rfl⟩; exact ⟨c, r, rfl⟩
  by_cases ha : a.toNat ≤ 127
  · exact hfin (x := [a]) (decode_1 ha)
  have ha' : ¬ a ≤ 0x7F := fun h => ha (le_toNat.1 h)
  match bs with
  | [] => simp [utf8Valid, ha'] at h
  | [b] =>
    simp [utf8Valid, ha'] at h
    obtain ⟨⟨h1, h2⟩, h3⟩ := h
    exact hfin (x := [a, b]) (r := []) (decode_2 (le_toNat.1 h1) (le_toNat.1 h2) h3)
  | [b, c] =>
    by_cases hd : a ≤ 0xDF
    · simp [utf8Valid, ha', hd] at h
      obtain ⟨⟨h1, h3⟩, _⟩ := h
      exact hfin (x := [a, b]) (r := [c]) (decode_2 (le_toNat.1 h1) (le_toNat.1 hd) h3)
    · simp [utf8Valid, ha', hd] at h
      exact hfin (x := [a, b, c]) (r := []) (decode_3 h.1 h.2)
  | b :: c :: d :: rest =>
    rw [utf8Valid] at h
    by_cases hd : a ≤ 0xDF
    · simp [ha', hd] at h
      obtain ⟨⟨h1, h3⟩, _⟩ := h
      exact hfin (x := [a, b]) (r := c :: d :: rest)
        (decode_2 (le_toNat.1 h1) (le_toNat.1 hd) h3)
    · by_cases he : a ≤ 0xEF
      · simp [ha', hd, he] at h
        exact hfin (x := [a, b, c]) (r := d :: rest) (decode_3 h.1.1 h.1.2)
      · simp [ha', hd, he] at h
        exact hfin (x := [a, b, c, d]) (r := rest) (decode_4 h.1.1.1 h.1.1.2 h.1.2)

theorem encode_ne_nil (c : Char) : String.utf8EncodeChar c ≠ [] := by
  rcases encode_cases c with ⟨a, h, _⟩ | ⟨a, b, h, _⟩ | ⟨a, b, d, h, _⟩ | ⟨a, b, d, e, h, _⟩ <;>
    simp [h]

theorem utf8Valid_iff (bs : Bytes) : utf8Valid bs = true ↔ Spec.Utf8 bs := by
  constructor
  · generalize hn : bs.length = n
    induction n using Nat.strongRecOn generalizing bs with
    | ind n ih =>
      intro h
      cases bs with
      | nil => exact ⟨[], rfl⟩
      | cons a bs =>
        obtain ⟨c, r, hr⟩ := utf8Valid_step a bs h
        rw [hr, utf8Valid_encode] at h
        have hlen : r.length < n := by
          rw [← hn, hr]
          have := List.length_pos_iff.2 (encode_ne_nil c)
          simp only [List.length_append]; omega
        obtain ⟨cs, hcs⟩ := ih r.length hlen r rfl h
        exact ⟨c :: cs, by rw [hr, hcs]; rfl⟩
  · rintro ⟨cs, rfl⟩
    induction cs with
    | nil => rfl
    | cons c cs ih => rw [List.flatMap_cons, utf8Valid_encode]; exact ih

theorem utf8Valid_ascii {bs : Bytes} (h : ∀ b ∈ bs, b.toNat ≤ 127) : utf8Valid bs = true := by
  induction bs with
  | nil => rfl
  | cons b bs ih =>
    rw [utf8Valid_1 (h b (by simp))]
    exact ih (fun x hx => h x (by simp [hx]))

theorem utf8_of_ascii {bs : Bytes} (h : ∀ b ∈ bs, b.toNat ≤ 127) : Spec.Utf8 bs :=
  (utf8Valid_iff bs).1 (utf8Valid_ascii h)

theorem denotesU_ascii {bits : Nat} {s : Bytes} {n : Nat} (h : Spec.DenotesU bits s n) :
    ∀ b ∈ s, b.toNat ≤ 127 := by
  rcases h.2 with h1 | ⟨ds, rfl, h1⟩
  · intro b hb; have := h1.2.1 b hb; unfold Spec.IsDigit at this; omega
  · intro b hb
    simp only [List.mem_cons] at hb
    rcases hb with rfl | hb
    · decide
    · have := h1.2.1 b hb; unfold Spec.IsDigit at this; omega

theorem denotesList_ascii {α : Type} {sep : UInt8} {D : Bytes → α → Prop} {s : Bytes} {xs : List α}
    (hsep : sep.toNat ≤ 127) (hD : ∀ e x, D e x → ∀ b ∈ e, b.toNat ≤ 127)
    (h : Spec.DenotesList sep D s xs) : ∀ b ∈ s, b.toNat ≤ 127 := by
  obtain ⟨first, rest, rfl, _, hlen, hz⟩ := h
  have hall : ∀ p ∈ first :: rest, ∀ b ∈ p, b.toNat ≤ 127 := by
    intro p hp
    obtain ⟨i, hi, rfl⟩ := List.getElem_of_mem hp
    have hx : i < xs.length := by omega
    refine hD _ xs[i] (hz ((first :: rest)[i], xs[i]) ?_)
    have : i < ((first :: rest).zip xs).length := by simp at hlen hi ⊢; omega
    have h2 : ((first :: rest).zip xs)[i] = ((first :: rest)[i], xs[i]) := by simp
    rw [← h2]; exact List.getElem_mem this
  intro b hb
  simp only [List.mem_append, List.mem_flatMap, List.mem_cons] at hb
  rcases hb with hb | ⟨p, hp, rfl | hb⟩
  · exact hall first (by simp) b hb
  · exact hsep
  · exact hall p (by simp [hp]) b hb

end SudoPair
