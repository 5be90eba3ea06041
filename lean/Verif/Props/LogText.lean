import Verif.Model.LogText
import Verif.Spec.LogText
import Verif.Lemmas.Utf8
import Verif.Props.Audit
/-
C70: what the log shows of a session.
-/
namespace SudoPair
open Spec Audit

/-! ### Reading bytes as text -/

theorem ofNat_mkChar {v : Nat} (h : v < 55296 ∨ 57343 < v ∧ v < 1114112) : Char.ofNat v = mkChar v h := by
  have hv : v.isValidChar := h
  apply Char.ext
  apply UInt32.toNat_inj.1
  rw [mkChar_toNat]
  simp [Char.ofNat, hv, Char.ofNatAux]

theorem encode_1 {a : UInt8} (h : a.toNat ≤ 127) : String.utf8EncodeChar (Char.ofNat a.toNat) = [a] := by
  rw [ofNat_mkChar (by omega)]
  unfold String.utf8EncodeChar
  rw [mkChar_toNat]
  simp [h]

theorem encode_2 {a b : UInt8} (h1 : 194 ≤ a.toNat) (h2 : a.toNat ≤ 223) (h3 : isCont b = true) :
    String.utf8EncodeChar (Char.ofNat ((a.toNat - 192) * 64 + (b.toNat - 128))) = [a, b] := by
  rw [isCont_iff] at h3
  rw [ofNat_mkChar (by omega)]
  unfold String.utf8EncodeChar
  rw [mkChar_toNat]
  simp only
  rw [if_neg (by omega), if_pos (by omega), byte_eq (a := a) (by omega), byte_eq (a := b) (by omega)]

theorem encode_3 {a b c : UInt8} (h1 : utf8Valid.three a b = true) (h3 : isCont c = true) :
    String.utf8EncodeChar (Char.ofNat ((a.toNat - 224) * 4096 + (b.toNat - 128) * 64 + (c.toNat - 128))) = [a, b, c] := by
  rw [isCont_iff] at h3
  rw [three_iff] at h1
  rw [ofNat_mkChar (by omega)]
  unfold String.utf8EncodeChar
  rw [mkChar_toNat]
  simp only
  rw [if_neg (by omega), if_neg (by omega), if_pos (by omega), byte_eq (a := a) (by omega),
    byte_eq (a := b) (by omega), byte_eq (a := c) (by omega)]

theorem encode_4 {a b c d : UInt8} (h1 : utf8Valid.four a b = true) (h3 : isCont c = true) (h4 : isCont d = true) :
    String.utf8EncodeChar (Char.ofNat
      ((a.toNat - 240) * 262144 + (b.toNat - 128) * 4096 + (c.toNat - 128) * 64 + (d.toNat - 128))) = [a, b, c, d] := by
  rw [isCont_iff] at h3 h4
  rw [four_iff] at h1
  rw [ofNat_mkChar (by omega)]
  unfold String.utf8EncodeChar
  rw [mkChar_toNat]
  simp only
  rw [if_neg (by omega), if_neg (by omega), if_neg (by omega), byte_eq (a := a) (by omega),
    byte_eq (a := b) (by omega), byte_eq (a := c) (by omega), byte_eq (a := d) (by omega)]

/-- The proper beginnings of encoded characters. -/
theorem beginning_iff (y : Bytes) : Beginning y ↔
    y = [] ∨ (∃ a : UInt8, y = [a] ∧ 194 ≤ a.toNat ∧ a.toNat ≤ 244) ∨
    (∃ a b, y = [a, b] ∧ (utf8Valid.three a b = true ∨ utf8Valid.four a b = true)) ∨
    (∃ a b c, y = [a, b, c] ∧ utf8Valid.four a b = true ∧ isCont c = true) := by
  have c80 : isCont 0x80 = true := by decide
  constructor
  · rintro ⟨ch, hp, hne⟩
    rcases encode_cases ch with ⟨a, h, h1⟩ | ⟨a, b, h, h1, h2, h3⟩ | ⟨a, b, d, h, h1, h2⟩ |
      ⟨a, b, d, e, h, h1, h2, h3⟩ <;> rw [h] at hp hne
    · match y, hp, hne with
      | [], _, _ => exact .inl rfl
      | [x], hp, hne => simp at hp; exact absurd (by rw [hp]) hne
      | _ :: _ :: _, hp, _ => simp [List.cons_prefix_cons] at hp
    · match y, hp, hne with
      | [], _, _ => exact .inl rfl
      | [x], hp, hne =>
        simp [List.cons_prefix_cons] at hp
        subst hp
        exact .inr (.inl ⟨_, rfl, h1, by omega⟩)
      | [x, z], hp, hne => simp [List.cons_prefix_cons] at hp; exact absurd (by rw [hp.1, hp.2]) hne
      | _ :: _ :: _ :: _, hp, _ => simp [List.cons_prefix_cons] at hp
    · have ha := (three_iff a b).1 h1
      match y, hp, hne with
      | [], _, _ => exact .inl rfl
      | [x], hp, hne =>
        simp [List.cons_prefix_cons] at hp
        subst hp
        exact .inr (.inl ⟨_, rfl, by omega, by omega⟩)
      | [x, z], hp, hne =>
        simp [List.cons_prefix_cons] at hp
        obtain ⟨rfl, rfl⟩ := hp
        exact .inr (.inr (.inl ⟨_, _, rfl, .inl h1⟩))
      | [x, z, w], hp, hne => simp [List.cons_prefix_cons] at hp; exact absurd (by rw [hp.1, hp.2.1, hp.2.2]) hne
      | _ :: _ :: _ :: _ :: _, hp, _ => simp [List.cons_prefix_cons] at hp
    · have ha := (four_iff a b).1 h1
      match y, hp, hne with
      | [], _, _ => exact .inl rfl
      | [x], hp, hne =>
        simp [List.cons_prefix_cons] at hp
        subst hp
        exact .inr (.inl ⟨_, rfl, by omega, by omega⟩)
      | [x, z], hp, hne =>
        simp [List.cons_prefix_cons] at hp
        obtain ⟨rfl, rfl⟩ := hp
        exact .inr (.inr (.inl ⟨_, _, rfl, .inr h1⟩))
      | [x, z, w], hp, hne =>
        simp [List.cons_prefix_cons] at hp
        obtain ⟨rfl, rfl, rfl⟩ := hp
        exact .inr (.inr (.inr ⟨_, _, _, rfl, h1, h2⟩))
      | [x, z, w, v], hp, hne =>
        simp [List.cons_prefix_cons] at hp; exact absurd (by rw [hp.1, hp.2.1, hp.2.2.1, hp.2.2.2]) hne
      | _ :: _ :: _ :: _ :: _ :: _, hp, _ => simp [List.cons_prefix_cons] at hp
  · rintro (rfl | ⟨a, rfl, h1, h2⟩ | ⟨a, b, rfl, h1 | h1⟩ | ⟨a, b, c, rfl, h1, h2⟩)
    · exact ⟨'a', List.nil_prefix, (encode_ne_nil _).symm⟩
    · by_cases ha : a.toNat ≤ 223
      · exact ⟨_, by rw [encode_2 h1 ha c80]; simp, by rw [encode_2 h1 ha c80]; simp⟩
      · by_cases hb : a.toNat ≤ 239
        · have h3 : utf8Valid.three a (if a.toNat = 224 then 0xA0 else 0x80) = true := by
            rw [three_iff]; split <;> simp <;> omega
          exact ⟨_, by rw [encode_3 h3 c80]; simp, by rw [encode_3 h3 c80]; simp⟩
        · have h3 : utf8Valid.four a (if a.toNat = 240 then 0x90 else 0x80) = true := by
            rw [four_iff]; split <;> simp <;> omega
          exact ⟨_, by rw [encode_4 h3 c80 c80]; simp, by rw [encode_4 h3 c80 c80]; simp⟩
    · exact ⟨_, by rw [encode_3 h1 c80]; simp, by rw [encode_3 h1 c80]; simp⟩
    · exact ⟨_, by rw [encode_4 h1 c80 c80]; simp, by rw [encode_4 h1 c80 c80]; simp⟩
    · exact ⟨_, by rw [encode_4 h1 h2 c80]; simp, by rw [encode_4 h1 h2 c80]; simp⟩

theorem three_four {a b : UInt8} (h : utf8Valid.three a b = true) : utf8Valid.four a b = false := by
  rw [← Bool.not_eq_true, four_iff]; rw [three_iff] at h; omega

theorem bad_1 {a : UInt8} {r : Bytes} {t : List Char} (ht : ReadsAs r t) (ha : ¬ a.toNat ≤ 127)
    (hr : ∀ b r', r = b :: r' → ¬ (194 ≤ a.toNat ∧ a.toNat ≤ 223 ∧ isCont b = true) ∧ utf8Valid.three a b = false ∧
      utf8Valid.four a b = false) : ReadsAs (a :: r) ('�' :: t) := by
  refine ReadsAs.bad (x := [a]) (r := r) (by simp) ?_ (.inl rfl) ?_ ht
  · intro ch hp
    rcases encode_cases ch with ⟨a', h, h1⟩ | ⟨a', b, h, h1, h2, h3⟩ | ⟨a', b, d, h, h1, h2⟩ |
      ⟨a', b, d, e, h, h1, h2, h3⟩ <;> rw [h] at hp <;> simp [List.cons_prefix_cons] at hp
    · subst hp; exact ha h1
    · obtain ⟨rfl, r', rfl⟩ := hp
      exact (hr _ _ rfl).1 ⟨h1, h2, h3⟩
    · obtain ⟨rfl, r', rfl⟩ := hp
      have := (hr _ _ rfl).2.1
      rw [h1] at this; simp at this
    · obtain ⟨rfl, r', rfl⟩ := hp
      have := (hr _ _ rfl).2.2
      rw [h1] at this; simp at this
  · intro y hp hy
    rcases (beginning_iff y).1 hy with rfl | ⟨a', rfl, -, -⟩ | ⟨a', b, rfl, h1⟩ | ⟨a', b, c, rfl, h1, -⟩
    · simp
    · simp
    · simp [List.cons_prefix_cons] at hp
      obtain ⟨rfl, r', rfl⟩ := hp
      have := (hr _ _ rfl).2
      rw [this.1, this.2] at h1; simp at h1
    · simp [List.cons_prefix_cons] at hp
      obtain ⟨rfl, r', rfl⟩ := hp
      have := (hr _ _ rfl).2
      rw [this.2] at h1; simp at h1

theorem bad_2 {a b : UInt8} {r : Bytes} {t : List Char} (ht : ReadsAs r t)
    (hab : utf8Valid.three a b = true ∨ utf8Valid.four a b = true)
    (hr : ∀ c r', r = c :: r' → isCont c = false) : ReadsAs (a :: b :: r) ('�' :: t) := by
  have hbig : 224 ≤ a.toNat := by
    rcases hab with h | h
    · exact ((three_iff a b).1 h).1
    · have := ((four_iff a b).1 h).1; omega
  refine ReadsAs.bad (x := [a, b]) (r := r) (by simp) ?_ (.inr ((beginning_iff _).2 (.inr (.inr (.inl ⟨a, b, rfl, hab⟩))))) ?_ ht
  · intro ch hp
    rcases encode_cases ch with ⟨a', h, h1⟩ | ⟨a', b', h, h1, h2, h3⟩ | ⟨a', b', d, h, h1, h2⟩ |
      ⟨a', b', d, e, h, h1, h2, h3⟩ <;> rw [h] at hp <;> simp [List.cons_prefix_cons] at hp
    · subst hp; omega
    · obtain ⟨rfl, -⟩ := hp; omega
    · obtain ⟨rfl, rfl, r', rfl⟩ := hp
      rw [hr _ _ rfl] at h2; simp at h2
    · obtain ⟨rfl, rfl, r', rfl⟩ := hp
      rw [hr _ _ rfl] at h2; simp at h2
  · intro y hp hy
    rcases (beginning_iff y).1 hy with rfl | ⟨a', rfl, -, -⟩ | ⟨a', b', rfl, h1⟩ | ⟨a', b', c, rfl, h1, h2⟩
    · simp
    · simp
    · simp
    · simp [List.cons_prefix_cons] at hp
      obtain ⟨rfl, rfl, r', rfl⟩ := hp
      rw [hr _ _ rfl] at h2; simp at h2

theorem bad_3 {a b c : UInt8} {r : Bytes} {t : List Char} (ht : ReadsAs r t)
    (hab : utf8Valid.four a b = true) (hc : isCont c = true)
    (hr : ∀ d r', r = d :: r' → isCont d = false) : ReadsAs (a :: b :: c :: r) ('�' :: t) := by
  have hbig := ((four_iff a b).1 hab).1
  refine ReadsAs.bad (x := [a, b, c]) (r := r) (by simp) ?_
    (.inr ((beginning_iff _).2 (.inr (.inr (.inr ⟨a, b, c, rfl, hab, hc⟩))))) ?_ ht
  · intro ch hp
    rcases encode_cases ch with ⟨a', h, h1⟩ | ⟨a', b', h, h1, h2, h3⟩ | ⟨a', b', d, h, h1, h2⟩ |
      ⟨a', b', d, e, h, h1, h2, h3⟩ <;> rw [h] at hp <;> simp [List.cons_prefix_cons] at hp
    · subst hp; omega
    · obtain ⟨rfl, -⟩ := hp; omega
    · obtain ⟨rfl, rfl, -⟩ := hp
      rw [three_four h1] at hab; simp at hab
    · obtain ⟨rfl, rfl, rfl, r', rfl⟩ := hp
      rw [hr _ _ rfl] at h3; simp at h3
  · intro y hp hy
    rcases (beginning_iff y).1 hy with rfl | ⟨a', rfl, -, -⟩ | ⟨a', b', rfl, h1⟩ | ⟨a', b', c, rfl, h1, h2⟩ <;> simp

theorem readsAs_lossy (b : Bytes) : ReadsAs b (lossy b) := by
  have single : ∀ {a : UInt8} {r : Bytes} {t}, ReadsAs r t → ¬ a.toNat ≤ 127 →
      (∀ b r', r = b :: r' → (194 ≤ a.toNat ∧ a.toNat ≤ 223 → ¬ isCont b = true) ∧
        (224 ≤ a.toNat ∧ a.toNat ≤ 239 → ¬ utf8Valid.three a b = true) ∧
        (240 ≤ a.toNat ∧ a.toNat ≤ 244 → ¬ utf8Valid.four a b = true)) → ReadsAs (a :: r) ('�' :: t) := by
    intro a r t ht ha hr
    refine bad_1 ht ha fun b r' h => ⟨fun hc => (hr b r' h).1 ⟨hc.1, hc.2.1⟩ hc.2.2, ?_, ?_⟩
    · rw [← Bool.not_eq_true]
      intro h3
      have := (three_iff a b).1 h3
      exact (hr b r' h).2.1 ⟨this.1, this.2.1⟩ h3
    · rw [← Bool.not_eq_true]
      intro h3
      have := (four_iff a b).1 h3
      exact (hr b r' h).2.2 ⟨this.1, this.2.1⟩ h3
  have lit : ∀ {x y : UInt8}, x ≤ y ↔ x.toNat ≤ y.toNat := UInt8.le_iff_toNat_le
  have enc : ∀ {c : Char} {x r : Bytes} {t}, String.utf8EncodeChar c = x → ReadsAs r t → ReadsAs (x ++ r) (c :: t) :=
    fun h ht => h ▸ .char ht
  fun_induction lossy b
  case case1 => exact .nil
  case case2 h ih => exact enc (encode_1 (lit.1 h)) ih
  case case3 h1 h2 => exact single .nil (fun h => h1 (lit.2 h)) (fun _ _ h => by simp at h)
  case case4 h1 h2 b r' h3 ih => exact enc (encode_2 (lit.1 h2.1) (lit.1 h2.2) h3) ih
  case case5 h1 h2 b r' h3 ih =>
    refine single ih (fun h => h1 (lit.2 h)) fun b' r'' h => ?_
    cases h
    exact ⟨fun _ => h3, fun h => absurd (lit.1 h2.2) (by simp; omega), fun h => absurd (lit.1 h2.2) (by simp; omega)⟩
  case case6 h1 h2 h3 => exact single .nil (fun h => h1 (lit.2 h)) (fun _ _ h => by simp at h)
  case case7 h1 h2 h3 b h4 => exact bad_2 .nil (.inl h4) (fun _ _ h => by simp at h)
  case case8 h1 h2 h3 b h4 ih =>
    refine single ih (fun h => h1 (lit.2 h)) fun b' r'' h => ?_
    cases h
    exact ⟨fun h => absurd (lit.1 h3.1) (by simp; omega), fun _ => h4, fun h => absurd (lit.1 h3.2) (by simp; omega)⟩
  case case9 h1 h2 h3 b c r' h4 h5 ih => exact enc (encode_3 h4 h5) ih
  case case10 h1 h2 h3 b c r' h4 h5 ih => exact bad_2 ih (.inl h4) (fun _ _ h => by cases h; simpa using h5)
  case case11 h1 h2 h3 b c r' h4 ih =>
    refine single ih (fun h => h1 (lit.2 h)) fun b' r'' h => ?_
    cases h
    exact ⟨fun h => absurd (lit.1 h3.1) (by simp; omega), fun _ => h4, fun h => absurd (lit.1 h3.2) (by simp; omega)⟩
  case case12 h1 h2 h3 h4 => exact single .nil (fun h => h1 (lit.2 h)) (fun _ _ h => by simp at h)
  case case13 h1 h2 h3 h4 b h5 => exact bad_2 .nil (.inr h5) (fun _ _ h => by simp at h)
  case case14 h1 h2 h3 h4 b h5 ih =>
    refine single ih (fun h => h1 (lit.2 h)) fun b' r'' h => ?_
    cases h
    exact ⟨fun h => absurd (lit.1 h4.1) (by simp; omega), fun h => absurd (lit.1 h4.1) (by simp; omega), fun _ => h5⟩
  case case15 h1 h2 h3 h4 b c h5 h6 => exact bad_3 .nil h5 h6 (fun _ _ h => by simp at h)
  case case16 h1 h2 h3 h4 b c h5 h6 ih => exact bad_2 ih (.inr h5) (fun _ _ h => by cases h; simpa using h6)
  case case17 h1 h2 h3 h4 b c h5 ih =>
    refine single ih (fun h => h1 (lit.2 h)) fun b' r'' h => ?_
    cases h
    exact ⟨fun h => absurd (lit.1 h4.1) (by simp; omega), fun h => absurd (lit.1 h4.1) (by simp; omega), fun _ => h5⟩
  case case18 h1 h2 h3 h4 b c d r' h5 h6 h7 ih => exact enc (encode_4 h5 h6 h7) ih
  case case19 h1 h2 h3 h4 b c d r' h5 h6 h7 ih => exact bad_3 ih h5 h6 (fun _ _ h => by cases h; simpa using h7)
  case case20 h1 h2 h3 h4 b c d r' h5 h6 ih => exact bad_2 ih (.inr h5) (fun _ _ h => by cases h; simpa using h6)
  case case21 h1 h2 h3 h4 b c d r' h5 ih =>
    refine single ih (fun h => h1 (lit.2 h)) fun b' r'' h => ?_
    cases h
    exact ⟨fun h => absurd (lit.1 h4.1) (by simp; omega), fun h => absurd (lit.1 h4.1) (by simp; omega), fun _ => h5⟩
  case case22 a r h1 h2 h3 h4 ih =>
    exact single ih (fun h => h1 (lit.2 h)) fun b' r'' h =>
      ⟨fun h => absurd ⟨lit.2 h.1, lit.2 h.2⟩ h2, fun h => absurd ⟨lit.2 h.1, lit.2 h.2⟩ h3,
        fun h => absurd ⟨lit.2 h.1, lit.2 h.2⟩ h4⟩

theorem encode_injective {c c' : Char} (h : String.utf8EncodeChar c = String.utf8EncodeChar c') : c = c' := by
  apply Char.ext
  apply UInt32.toNat_inj.1
  have hv := c.valid
  have hv' := c'.valid
  simp only [UInt32.isValidChar, Nat.isValidChar] at hv hv'
  unfold String.utf8EncodeChar at h
  generalize c.val.toNat = v at *
  generalize c'.val.toNat = v' at *
  simp only at h
  repeat' split at h
  all_goals simp [← UInt8.toNat_inj] at h <;> omega

/-- No encoded character begins with another one. -/
theorem encode_prefix {c c' : Char} {s : Bytes} (h : String.utf8EncodeChar c <+: s) (h' : String.utf8EncodeChar c' <+: s) :
    c = c' := by
  have key : ∀ {c c' : Char}, String.utf8EncodeChar c <+: String.utf8EncodeChar c' → c = c' := by
    intro c c' h
    refine Classical.byContradiction fun hne => ?_
    have hb : Beginning (String.utf8EncodeChar c) := ⟨c', h, fun h => hne (encode_injective h)⟩
    rcases encode_cases c with ⟨a, h, h1⟩ | ⟨a, b, h, h1, h2, h3⟩ | ⟨a, b, d, h, h1, h2⟩ | ⟨a, b, d, e, h, h1, h2, h3⟩ <;>
      rw [h, beginning_iff] at hb <;> simp at hb
    · omega
    · rw [three_iff, four_iff] at hb; omega
    · rw [three_four h1] at hb; simp at hb
  rcases Nat.le_total (String.utf8EncodeChar c).length (String.utf8EncodeChar c').length with hl | hl
  · exact key (List.prefix_of_prefix_length_le h h' hl)
  · exact (key (List.prefix_of_prefix_length_le h' h hl)).symm

/-- There is one way to read bytes as text. -/
theorem readsAs_unique {b : Bytes} {t : List Char} (h : ReadsAs b t) : ∀ {t'}, ReadsAs b t' → t = t' := by
  induction h with
  | nil =>
    intro t' h'
    generalize hb : ([] : Bytes) = b at h'
    cases h' with
    | nil => rfl
    | char _ => exact absurd (List.append_eq_nil_iff.1 hb.symm).1 (encode_ne_nil _)
    | bad h0 => exact absurd (List.append_eq_nil_iff.1 hb.symm).1 h0
  | @char c r t _ ih =>
    intro t' h'
    generalize hb : String.utf8EncodeChar c ++ r = b at h'
    cases h' with
    | nil => exact absurd (List.append_eq_nil_iff.1 hb).1 (encode_ne_nil _)
    | @char c' r' t' h' =>
      have : c = c' := encode_prefix (s := String.utf8EncodeChar c ++ r) (List.prefix_append ..) (hb ▸ List.prefix_append ..)
      subst this
      rw [List.append_cancel_left_eq] at hb
      subst hb
      rw [ih h']
    | @bad x r' t' _ h1 => exact absurd (hb ▸ List.prefix_append ..) (h1 c)
  | @bad x r t h0 h1 h2 h3 _ ih =>
    intro t' h'
    generalize hb : x ++ r = b at h'
    cases h' with
    | nil => exact absurd (List.append_eq_nil_iff.1 hb).1 h0
    | @char c' r' t' h' => exact absurd (hb ▸ List.prefix_append ..) (h1 c')
    | @bad x' r' t' h0' h1' h2' h3' h' =>
      have hpos : 1 ≤ x.length := List.length_pos_iff.2 h0
      have hpos' : 1 ≤ x'.length := List.length_pos_iff.2 h0'
      have hle : x.length ≤ x'.length := by
        rcases h2 with h2 | h2
        · omega
        · exact h3' x (hb ▸ List.prefix_append ..) h2
      have hle' : x'.length ≤ x.length := by
        rcases h2' with h2' | h2'
        · omega
        · exact h3 x' (hb ▸ List.prefix_append ..) h2'
      obtain ⟨rfl, rfl⟩ := List.append_inj hb (by omega)
      rw [ih h']

/-- **C70.**  What the log shows of a byte string is that string read as text, characters as they are and U+FFFD
for what is not one. -/
theorem C70_lossy (b : Bytes) (t : List Char) : ReadsAs b t ↔ t = lossy b :=
  ⟨fun h => readsAs_unique h (readsAs_lossy b), fun h => h ▸ readsAs_lossy b⟩

theorem readsAs_text : ∀ cs : List Char, ReadsAs (cs.flatMap String.utf8EncodeChar) cs
  | [] => .nil
  | _ :: cs => .char (readsAs_text cs)

/-- **C70.**  Text is shown as it is, -/
theorem C70_text (cs : List Char) : lossy (cs.flatMap String.utf8EncodeChar) = cs :=
  ((C70_lossy _ _).1 (readsAs_text cs)).symm

/-- **C70.**  so that different texts look different. -/
theorem C70_lossy_inj {b b' : Bytes} (h : Utf8 b) (h' : Utf8 b') (he : lossy b = lossy b') : b = b' := by
  obtain ⟨cs, rfl⟩ := h
  obtain ⟨cs', rfl⟩ := h'
  rw [C70_text, C70_text] at he
  rw [he]

/-! ### Numbers -/

theorem digitChar_inj {m n : Nat} (hm : m < 16) (hn : n < 16) (h : m.digitChar = n.digitChar) : m = n := by
  revert m n
  have : ∀ m : Fin 16, ∀ n : Fin 16, m.val.digitChar = n.val.digitChar → m = n := by decide
  intro m n hm hn h
  exact congrArg Fin.val (this ⟨m, hm⟩ ⟨n, hn⟩ h)

theorem toDigits_inj {b : Nat} (hb : 1 < b) (hb' : b ≤ 16) :
    ∀ m n : Nat, Nat.toDigits b m = Nat.toDigits b n → m = n := by
  intro m
  induction m using Nat.strongRecOn with
  | _ m ih =>
    intro n h
    rcases Nat.lt_or_ge m b with hm | hm <;> rcases Nat.lt_or_ge n b with hn | hn
    · rw [Nat.toDigits_of_lt_base hm, Nat.toDigits_of_lt_base hn] at h
      exact digitChar_inj (by omega) (by omega) (List.cons.inj h).1
    · rw [Nat.toDigits_of_lt_base hm, Nat.toDigits_of_base_le hb hn] at h
      have := congrArg List.length h
      have := List.length_pos_iff.2 (Nat.toDigits_ne_nil (n := n / b) (b := b))
      simp only [List.length_append, List.length_cons, List.length_nil] at *
      omega
    · rw [Nat.toDigits_of_lt_base hn, Nat.toDigits_of_base_le hb hm] at h
      have := congrArg List.length h
      have := List.length_pos_iff.2 (Nat.toDigits_ne_nil (n := m / b) (b := b))
      simp only [List.length_append, List.length_cons, List.length_nil] at *
      omega
    · rw [Nat.toDigits_of_base_le hb hm, Nat.toDigits_of_base_le hb hn] at h
      obtain ⟨h1, h2⟩ := List.append_inj' h rfl
      have h1 := ih (m / b) (Nat.div_lt_self (by omega) hb) _ h1
      have h2 := digitChar_inj (by have := Nat.mod_lt m (by omega : b > 0); omega)
        (by have := Nat.mod_lt n (by omega : b > 0); omega) (List.cons.inj h2).1
      rw [← Nat.div_add_mod m b, ← Nat.div_add_mod n b, h1, h2]

/-- The characters of digits. -/
theorem mem_toDigits {b : Nat} (hb : 1 < b) (hb' : b ≤ 16) :
    ∀ n : Nat, ∀ c ∈ Nat.toDigits b n, ∃ d, d < 16 ∧ c = d.digitChar := by
  intro n
  induction n using Nat.strongRecOn with
  | _ n ih =>
    intro c hc
    rcases Nat.lt_or_ge n b with hn | hn
    · rw [Nat.toDigits_of_lt_base hn] at hc
      exact ⟨n, by omega, by simpa using hc⟩
    · rw [Nat.toDigits_of_base_le hb hn, List.mem_append] at hc
      rcases hc with hc | hc
      · exact ih (n / b) (Nat.div_lt_self (by omega) hb) c hc
      · exact ⟨n % b, by have := Nat.mod_lt n (by omega : b > 0); omega, by simpa using hc⟩

/-- **C70.**  Different numbers look different, in decimal and in octal. -/
theorem C70_numbers {m n : Nat} : (Nat.toDigits 10 m = Nat.toDigits 10 n → m = n) ∧ (octalForm m = octalForm n → m = n) := by
  refine ⟨toDigits_inj (by omega) (by omega) m n, fun h => ?_⟩
  have key : ∀ n, Nat.ofDigitChars 8 ((octalForm n).drop 2) 0 = n := by
    intro n
    simp only [octalForm, List.cons_append, List.nil_append, List.drop_succ_cons, List.drop_zero]
    rw [Nat.ofDigitChars_append, Nat.ofDigitChars_replicate_zero, Nat.mul_zero,
      Nat.ofDigitChars_toDigits (by omega) (by omega)]
  rw [← key m, h, key n]

theorem mem_octal : ∀ n : Nat, ∀ c ∈ Nat.toDigits 8 n, c ∈ ['0', '1', '2', '3', '4', '5', '6', '7'] := by
  have key : ∀ d : Fin 8, d.val.digitChar ∈ ['0', '1', '2', '3', '4', '5', '6', '7'] := by decide
  intro n
  induction n using Nat.strongRecOn with
  | ind n ih =>
    intro c hc
    by_cases h : n < 8
    · rw [Nat.toDigits_of_lt_base h, List.mem_singleton] at hc
      rw [hc]; exact key ⟨n, h⟩
    · rw [Nat.toDigits_of_base_le (by omega) (by omega)] at hc
      rcases List.mem_append.1 hc with hc | hc
      · exact ih _ (by omega) c hc
      · rw [List.mem_singleton] at hc
        rw [hc]; exact key ⟨n % 8, Nat.mod_lt _ (by omega)⟩

/-- **C70.**  The mode of the socket is shown as `0o` and at least four octal digits, no more than needed. -/
theorem C70_octal (n : Nat) : ∃ ds, octalForm n = ['0', 'o'] ++ ds ∧
    (∀ d ∈ ds, d ∈ ['0', '1', '2', '3', '4', '5', '6', '7']) ∧ Nat.ofDigitChars 8 ds 0 = n ∧
    4 ≤ ds.length ∧ (4 < ds.length → 8 ^ (ds.length - 1) ≤ n) := by
  refine ⟨List.replicate (4 - (Nat.toDigits 8 n).length) '0' ++ Nat.toDigits 8 n, by simp [octalForm], ?_, ?_, ?_, ?_⟩
  · intro d hd
    rcases List.mem_append.1 hd with h | h
    · rw [(List.mem_replicate.1 h).2]; simp
    · exact mem_octal n d h
  · rw [Nat.ofDigitChars_append, Nat.ofDigitChars_replicate_zero, Nat.mul_zero,
      Nat.ofDigitChars_toDigits (by omega) (by omega)]
  · simp only [List.length_append, List.length_replicate]; omega
  · simp only [List.length_append, List.length_replicate]
    intro h
    have h1 : 4 - (Nat.toDigits 8 n).length + (Nat.toDigits 8 n).length = (Nat.toDigits 8 n).length := by omega
    rw [h1] at h ⊢
    refine Nat.le_of_not_lt fun h2 => ?_
    have := (Nat.length_toDigits_le_iff (b := 8) (n := n) (k := (Nat.toDigits 8 n).length - 1) (by omega) (by omega)).2 h2
    omega

/-! ### Arguments -/

theorem append_sep {α : Type} {z : α} : ∀ {a b x y : List α}, z ∉ a → z ∉ b → a ++ z :: x = b ++ z :: y → a = b ∧ x = y
  | [], [], _, _, _, _, h => ⟨rfl, (List.cons.inj h).2⟩
  | [], c :: b, _, _, _, hb, h => absurd (List.cons.inj h).1 (fun h => hb (h ▸ List.mem_cons_self ..))
  | c :: a, [], _, _, ha, _, h => absurd (List.cons.inj h).1.symm (fun h => ha (h ▸ List.mem_cons_self ..))
  | c :: a, d :: b, x, y, ha, hb, h => by
    obtain ⟨rfl, h2⟩ := List.cons.inj h
    obtain ⟨rfl, rfl⟩ := append_sep (fun h => ha (List.mem_cons_of_mem _ h)) (fun h => hb (List.mem_cons_of_mem _ h)) h2
    exact ⟨rfl, rfl⟩

theorem brace_not_digit (n : Nat) : '}' ∉ Nat.toDigits 16 n := by
  intro h
  obtain ⟨d, hd, h⟩ := mem_toDigits (by omega) (by omega) n _ h
  have : ∀ d : Fin 16, '}' ≠ d.val.digitChar := by decide
  exact this ⟨d, hd⟩ h

/-- The forms of an escaped character. -/
theorem escape_forms (E : Escapes) (c : Char) :
    (escapeChar E c = [c] ∧ E.printable c = true ∧ c ≠ '"' ∧ c ≠ '\\' ∧ c ≠ '\n' ∧ c ≠ '\r' ∧ c ≠ '\t') ∨
    (∃ k, escapeChar E c = ['\\', k] ∧ ((k, c) ∈ [('t', '\t'), ('r', '\r'), ('n', '\n'), ('"', '"'), ('\\', '\\'),
      ('\'', '\''), ('0', '\x00')])) ∨
    escapeChar E c = '\\' :: 'u' :: '{' :: (Nat.toDigits 16 c.toNat ++ ['}']) := by
  unfold escapeChar
  split
  · rename_i h; subst h; exact .inr (.inl ⟨_, rfl, by simp⟩)
  split
  · rename_i h; subst h; exact .inr (.inl ⟨_, rfl, by simp⟩)
  split
  · rename_i h; subst h; exact .inr (.inl ⟨_, rfl, by simp⟩)
  split
  · rename_i h; subst h; exact .inr (.inl ⟨_, rfl, by simp⟩)
  split
  · rename_i h; subst h; exact .inr (.inl ⟨_, rfl, by simp⟩)
  split
  · rename_i h; obtain ⟨rfl, _⟩ := h; exact .inr (.inl ⟨_, rfl, by simp⟩)
  split
  · rename_i h; obtain ⟨rfl, _⟩ := h; exact .inr (.inl ⟨_, rfl, by simp⟩)
  split
  · rename_i h; exact .inl ⟨rfl, h, by assumption, by assumption, by assumption, by assumption, by assumption⟩
  · exact .inr (.inr (by simp))

/-- An escaped character can be told from what follows it. -/
theorem escape_inj {E : Escapes} {c c' : Char} {x x' : List Char} (h : escapeChar E c ++ x = escapeChar E c' ++ x') :
    c = c' ∧ x = x' := by
  have nu : ∀ {k c : Char}, (k, c) ∈ [('t', '\t'), ('r', '\r'), ('n', '\n'), ('"', '"'), ('\\', '\\'),
      ('\'', '\''), ('0', '\x00')] → k ≠ 'u' := by
    intro k c h
    simp at h
    rcases h with h | h | h | h | h | h | h <;> rw [h.1] <;> decide
  rcases escape_forms E c with ⟨h1, _, _, h2, _⟩ | ⟨k, h1, h2⟩ | h1 <;>
  rcases escape_forms E c' with ⟨h3, _, _, h4, _⟩ | ⟨k', h3, h4⟩ | h3 <;> rw [h1, h3] at h <;> simp at h
  · exact h
  · exact absurd h.1 h2
  · exact absurd h.1 h2
  · exact absurd h.1.symm h4
  · obtain ⟨rfl, h⟩ := h
    refine ⟨?_, h⟩
    simp at h2 h4
    rcases h2 with h2 | h2 | h2 | h2 | h2 | h2 | h2 <;> obtain ⟨rfl, rfl⟩ := h2 <;> simp at h4 <;> exact h4.symm
  · exact absurd h.1 (nu h2)
  · exact absurd h.1.symm h4
  · exact absurd h.1.symm (nu h4)
  · obtain ⟨h, hx⟩ := append_sep (brace_not_digit _) (brace_not_digit _) h
    exact ⟨Char.ext (UInt32.toNat_inj.1 (toDigits_inj (by omega) (by omega) _ _ h)), hx⟩

theorem escape_not_quote {E : Escapes} {c : Char} {x y : List Char} : escapeChar E c ++ x ≠ '"' :: y := by
  intro h
  rcases escape_forms E c with ⟨h1, _, h2, _⟩ | ⟨k, h1, _⟩ | h1 <;> rw [h1] at h <;> simp at h
  exact h2 h.1

theorem debugStr_inj {E : Escapes} {s s' x x' : List Char} (h : debugStr E s ++ x = debugStr E s' ++ x') :
    s = s' ∧ x = x' := by
  simp only [debugStr, List.cons_append, List.append_assoc, List.nil_append, List.cons.injEq, true_and] at h
  induction s generalizing s' with
  | nil =>
    cases s' with
    | nil => simpa using h
    | cons c' s' =>
      rw [List.flatMap_cons, List.append_assoc] at h
      exact absurd h.symm escape_not_quote
  | cons c s ih =>
    cases s' with
    | nil =>
      rw [List.flatMap_cons, List.append_assoc] at h
      exact absurd h escape_not_quote
    | cons c' s' =>
      rw [List.flatMap_cons, List.flatMap_cons, List.append_assoc, List.append_assoc] at h
      obtain ⟨rfl, h2⟩ := escape_inj h
      obtain ⟨rfl, rfl⟩ := ih h2
      exact ⟨rfl, rfl⟩

theorem debugRest_inj {E : Escapes} : ∀ {l l' : List (List Char)},
    debugRest E l ++ [']'] = debugRest E l' ++ [']'] → l = l'
  | [], [], _ => rfl
  | [], _ :: _, h => by simp [debugRest] at h
  | _ :: _, [], h => by simp [debugRest] at h
  | s :: l, s' :: l', h => by
    simp only [debugRest, List.cons_append, List.append_assoc, List.cons.injEq, true_and] at h
    obtain ⟨rfl, h2⟩ := debugStr_inj h
    rw [debugRest_inj h2]

/-- **C70.**  Different arguments look different: where one ends and the next begins can be told from the text,
whatever the arguments contain. -/
theorem C70_args {E : Escapes} {l l' : List (List Char)} (h : debugList E l = debugList E l') : l = l' := by
  cases l <;> cases l'
  · rfl
  · simp [debugList, debugStr] at h
  · simp [debugList, debugStr] at h
  · simp only [debugList, List.cons.injEq, true_and] at h
    obtain ⟨rfl, h2⟩ := debugStr_inj h
    rw [debugRest_inj h2]

theorem map_lossy_inj : ∀ {l l' : List Bytes}, (∀ b ∈ l, Utf8 b) → (∀ b ∈ l', Utf8 b) →
    l.map lossy = l'.map lossy → l = l'
  | [], [], _, _, _ => rfl
  | [], _ :: _, _, _, h => by simp at h
  | _ :: _, [], _, _, h => by simp at h
  | b :: l, b' :: l', h, h', he => by
    simp only [List.map_cons, List.cons.injEq] at he
    rw [C70_lossy_inj (h _ (by simp)) (h' _ (by simp)) he.1,
      map_lossy_inj (fun b hb => h b (by simp [hb])) (fun b hb => h' b (by simp [hb])) he.2]

/-- **C70.**  The text of the arguments holds no line break, no tab, and no other character that is not printable,
whatever the arguments contain: they cannot be mistaken for another record. -/
theorem C70_one_line {E : Escapes} {l : List (List Char)} (c : Char) (hc : c ∈ debugList E l) :
    c ≠ '\n' ∧ c ≠ '\r' ∧ c ≠ '\t' ∧ (E.printable c = true ∨ (32 ≤ c.toNat ∧ c.toNat ≤ 126)) := by
  let Q : Char → Prop := fun c => c ≠ '\n' ∧ c ≠ '\r' ∧ c ≠ '\t' ∧ (E.printable c = true ∨ (32 ≤ c.toNat ∧ c.toNat ≤ 126))
  have lit : ∀ c : Char, 32 ≤ c.toNat → c.toNat ≤ 126 → Q c := by
    intro c h1 h2
    refine ⟨?_, ?_, ?_, .inr ⟨h1, h2⟩⟩ <;> rintro rfl <;> exact absurd h1 (by decide)
  have esc : ∀ c, ∀ k ∈ escapeChar E c, Q k := by
    intro c k hk
    rcases escape_forms E c with ⟨h1, h2, _, _, h3, h4, h5⟩ | ⟨q, h1, h2⟩ | h1 <;> rw [h1] at hk <;> simp at hk
    · subst hk; exact ⟨h3, h4, h5, .inl h2⟩
    · rcases hk with rfl | rfl
      · exact lit _ (by decide) (by decide)
      · simp at h2
        rcases h2 with h2 | h2 | h2 | h2 | h2 | h2 | h2 <;> rw [h2.1] <;> exact lit _ (by decide) (by decide)
    · rcases hk with rfl | rfl | rfl | hk | rfl
      · exact lit _ (by decide) (by decide)
      · exact lit _ (by decide) (by decide)
      · exact lit _ (by decide) (by decide)
      · obtain ⟨d, hd, rfl⟩ := mem_toDigits (by omega) (by omega) _ _ hk
        have : ∀ d : Fin 16, 32 ≤ d.val.digitChar.toNat ∧ d.val.digitChar.toNat ≤ 126 := by decide
        exact lit _ (this ⟨d, hd⟩).1 (this ⟨d, hd⟩).2
      · exact lit _ (by decide) (by decide)
  have str : ∀ s, ∀ k ∈ debugStr E s, Q k := by
    intro s k hk
    simp only [debugStr, List.mem_cons, List.mem_append, List.mem_flatMap, List.not_mem_nil, or_false] at hk
    rcases hk with rfl | ⟨c, _, hk⟩ | rfl
    · exact lit _ (by decide) (by decide)
    · exact esc c k hk
    · exact lit _ (by decide) (by decide)
  have rest : ∀ l, ∀ k ∈ debugRest E l, Q k := by
    intro l
    induction l with
    | nil => intro k hk; simp [debugRest] at hk
    | cons s l ih =>
      intro k hk
      simp only [debugRest, List.mem_cons, List.mem_append] at hk
      rcases hk with rfl | rfl | hk | hk
      · exact lit _ (by decide) (by decide)
      · exact lit _ (by decide) (by decide)
      · exact str s k hk
      · exact ih k hk
  change Q c
  cases l with
  | nil =>
    simp only [debugList, List.mem_cons, List.not_mem_nil, or_false] at hc
    rcases hc with rfl | rfl <;> exact lit _ (by decide) (by decide)
  | cons s l =>
    simp only [debugList, List.mem_cons, List.mem_append, List.not_mem_nil, or_false] at hc
    rcases hc with rfl | hc | hc | rfl
    · exact lit _ (by decide) (by decide)
    · exact str s c hc
    · exact rest l c hc
    · exact lit _ (by decide) (by decide)

/-! ### Records -/

/-- The session as it appears in a record. -/
theorem identity_shown (E : Escapes) (e : IoEnv) : shownFields E (identity e) =
    [(b! "uid", some (Nat.toDigits 10 e.userInfo.uid)),
     (b! "runas_euid", some (Nat.toDigits 10 e.commandInfo.runasEuid)),
     (b! "runas_egid", some (Nat.toDigits 10 e.commandInfo.runasEgid)),
     (b! "command", some (lossy e.commandInfo.command)),
     (b! "args", some (debugList E ((e.cmdline.drop 1).map lossy))),
     (b! "plugin_name", some (lossy (b! "sudo_pair"))), (b! "plugin_version", some (lossy (b! "1.2.0")))] := rfl

theorem shown_inj {E : Escapes} {own own' : Fields} {e e' : IoEnv}
    (h : shownFields E (own ++ identity e) = shownFields E (own' ++ identity e')) :
    e.userInfo.uid = e'.userInfo.uid ∧ e.commandInfo.runasEuid = e'.commandInfo.runasEuid ∧
    e.commandInfo.runasEgid = e'.commandInfo.runasEgid ∧
    lossy e.commandInfo.command = lossy e'.commandInfo.command ∧
    (e.cmdline.drop 1).map lossy = (e'.cmdline.drop 1).map lossy := by
  have sp : ∀ a b, shownFields E (a ++ b) = shownFields E a ++ shownFields E b := fun a b => List.map_append ..
  rw [sp, sp] at h
  have h := (List.append_inj' h (by simp [identity_shown])).2
  rw [identity_shown, identity_shown] at h
  simp only [List.cons.injEq, Prod.mk.injEq, Option.some.injEq, true_and, and_true] at h
  exact ⟨C70_numbers.1 h.1, C70_numbers.1 h.2.1, C70_numbers.1 h.2.2.1, h.2.2.2.1, C70_args h.2.2.2.2⟩

/-- **C70.**  Records tell sessions apart: records of two invocations with the same text are about the same user,
the same target user and group, and a command and arguments that read the same. -/
theorem C70_records {rt rt' : Rt} {a a' : OpenArgs} {st st' : State} {o o' t t'} {E : Escapes}
    (hr : LRuns (Audit.Core.open rt a st) o t) (hr' : LRuns (Audit.Core.open rt' a' st') o' t')
    (r r' : Record) (hm : Audit.Entry.note r ∈ t) (hm' : Audit.Entry.note r' ∈ t')
    (hl : Lasting r.level = true) (hl' : Lasting r'.level = true)
    (he : shownFields E r.fields = shownFields E r'.fields) :
    ∃ env0 env0', IoEnv.new rt a = some (.ok env0) ∧ IoEnv.new rt' a' = some (.ok env0') ∧
      (effEnv st env0).userInfo.uid = (effEnv st' env0').userInfo.uid ∧
      (effEnv st env0).commandInfo.runasEuid = (effEnv st' env0').commandInfo.runasEuid ∧
      (effEnv st env0).commandInfo.runasEgid = (effEnv st' env0').commandInfo.runasEgid ∧
      lossy (effEnv st env0).commandInfo.command = lossy (effEnv st' env0').commandInfo.command ∧
      ((effEnv st env0).cmdline.drop 1).map lossy = ((effEnv st' env0').cmdline.drop 1).map lossy := by
  rcases C66_identity hr r hm with rfl | ⟨env0, own, h1, h2⟩
  · exact absurd hl (by decide)
  rcases C66_identity hr' r' hm' with rfl | ⟨env0', own', h1', h2'⟩
  · exact absurd hl' (by decide)
  rw [h2, h2'] at he
  exact ⟨env0, env0', h1, h1', shown_inj he⟩

/-- **C70.**  When command and arguments are text, they are the same. -/
theorem C70_same {E : Escapes} {own own' : Fields} {e e' : IoEnv}
    (hu : Utf8 e.commandInfo.command ∧ ∀ b ∈ e.cmdline, Utf8 b)
    (hu' : Utf8 e'.commandInfo.command ∧ ∀ b ∈ e'.cmdline, Utf8 b)
    (h : shownFields E (own ++ identity e) = shownFields E (own' ++ identity e')) :
    e.commandInfo.command = e'.commandInfo.command ∧ e.cmdline.drop 1 = e'.cmdline.drop 1 := by
  obtain ⟨_, _, _, h1, h2⟩ := shown_inj h
  exact ⟨C70_lossy_inj hu.1 hu'.1 h1, map_lossy_inj (fun b hb => hu.2 b (List.mem_of_mem_drop hb))
    (fun b hb => hu'.2 b (List.mem_of_mem_drop hb)) h2⟩

/-- **C70.**  The command, unlike the arguments, is shown as it is: line breaks and quotes in the path of the command
are part of the record. -/
theorem C70_command (E : Escapes) (cs : List Char) (e : IoEnv)
    (h : e.commandInfo.command = cs.flatMap String.utf8EncodeChar) :
    (b! "command", some cs) ∈ shownFields E (identity e) := by
  rw [identity_shown, h, C70_text]
  simp

/-- A rendering with the printable characters of ASCII. -/
def asciiEscapes : Escapes := ⟨fun c => 32 ≤ c.toNat ∧ c.toNat ≤ 126, false, true⟩

/-- What is not text can look alike: the log does not tell these apart. -/
example : lossy [0xff] = lossy [0xfe] ∧ ([0xff] : Bytes) ≠ [0xfe] := by decide +kernel

example : lossy (b! "aé€😀") = ['a', 'é', '€', '😀'] := by decide +kernel
/-- A beginning of a character is replaced as a whole; a surrogate and an overlong form byte by byte. -/
example : lossy [0x61, 0xe2, 0x82, 0x62, 0xed, 0xa0, 0x80, 0xc0, 0x80, 0xf0, 0x9f, 0x98] =
    ['a', '\uFFFD', 'b', '\uFFFD', '\uFFFD', '\uFFFD', '\uFFFD', '\uFFFD', '\uFFFD'] := by decide +kernel

example : debugList asciiEscapes [['a', '"', ',', ' ', '"'], ['\n', '\\', '\x1b', '\'']] =
    "[\"a\\\", \\\"\", \"\\n\\\\\\u{1b}'\"]".toList := by decide +kernel
example : octalForm 0o660 = "0o0660".toList ∧ octalForm 0o12345 = "0o12345".toList := by decide +kernel

/-- The records of the sample session, as they appear. -/
example : shownFields asciiEscapes (identity argsEnv) =
    [(b! "uid", some "1000".toList), (b! "runas_euid", some "0".toList), (b! "runas_egid", some "0".toList),
     (b! "command", some "/bin/ls".toList), (b! "args", some "[\"-l\"]".toList),
     (b! "plugin_name", some "sudo_pair".toList), (b! "plugin_version", some "1.2.0".toList)] := by decide +kernel

/-- The hypotheses of C70_records hold of the sample session. -/
example : ∃ (o : Out (Int × State)) (t : List Audit.Entry) (r : Record),
    LRuns (Audit.Core.open sampleRt sampleArgs ⟨none, none⟩) o t ∧ .note r ∈ t ∧ Lasting r.level = true := by
  have h : (Audit.Core.open sampleRt sampleArgs ⟨none, none⟩ (List.replicate 100 (coop 121))).2.1.any
      (fun | .note r => Lasting r.level | .sys _ => false) = true := by decide +kernel
  obtain ⟨e, hm, he⟩ := List.any_eq_true.1 h
  cases e with
  | sys e => exact absurd he (by simp)
  | note r => exact ⟨_, _, r, ⟨_, rfl, rfl⟩, hm, he⟩

/-- Those of C70_same hold of the sample session. -/
example : Utf8 argsEnv.commandInfo.command ∧ ∀ b ∈ argsEnv.cmdline, Utf8 b := by
  have h : utf8Valid argsEnv.commandInfo.command = true ∧ ∀ b ∈ argsEnv.cmdline, utf8Valid b = true := by decide +kernel
  exact ⟨(utf8Valid_iff _).1 h.1, fun b hb => (utf8Valid_iff _).1 (h.2 b hb)⟩

end SudoPair
