import Verif.Model.Pair
import Verif.Lemmas.Text
import Verif.Lemmas.Utf8
/-
Typed reads from option vectors, in terms of `Spec.Reads`.
-/
namespace SudoPair

theorem getStr_iff (vec : Option (List Bytes)) (k v : Bytes) :
    (OptionMap.fromRaw vec).getStr k = some v ↔ Spec.Value vec k v ∧ Spec.Utf8 v := by
  unfold OptionMap.getStr
  rw [Option.bind_eq_some_iff]
  constructor
  · rintro ⟨w, hw, h⟩
    split at h
    · rename_i hu
      simp at h; subst h
      exact ⟨(fromRaw_getBytes ..).1 hw, (utf8Valid_iff w).1 hu⟩
    · simp at h
  · rintro ⟨h1, h2⟩
    exact ⟨v, (fromRaw_getBytes ..).2 h1, by rw [(utf8Valid_iff v).2 h2]; simp⟩

theorem get_ok_iff {α : Type} {p : Bytes → Option α} {D : Bytes → α → Prop}
    (hp : ∀ s a, p s = some a ↔ D s a) (vec : Option (List Bytes)) (k : Bytes) (a : α) :
    (OptionMap.fromRaw vec).get p k = .ok a ↔ ∃ v, Spec.Value vec k v ∧ Spec.Utf8 v ∧ D v a := by
  unfold OptionMap.get
  cases hs : (OptionMap.fromRaw vec).getStr k with
  | none =>
    simp only [reduceCtorEq, false_iff]
    rintro ⟨v, h1, h2, _⟩
    rw [(getStr_iff vec k v).2 ⟨h1, h2⟩] at hs; simp at hs
  | some v =>
    have hv := (getStr_iff vec k v).1 hs
    cases hpv : p v with
    | none =>
      simp only [hpv, reduceCtorEq, false_iff]
      rintro ⟨w, h1, h2, h3⟩
      have := (getStr_iff vec k w).2 ⟨h1, h2⟩
      rw [hs] at this; simp at this; subst this
      rw [(hp _ _).2 h3] at hpv; simp at hpv
    | some b =>
      simp only [hpv, Except.ok.injEq]
      constructor
      · rintro rfl; exact ⟨v, hv.1, hv.2, (hp _ _).1 hpv⟩
      · rintro ⟨w, h1, h2, h3⟩
        have := (getStr_iff vec k w).2 ⟨h1, h2⟩
        rw [hs] at this; simp at this; subst this
        rw [(hp _ _).2 h3] at hpv; simpa using hpv.symm

theorem get?_readsOpt {α : Type} {p : Bytes → Option α} {D : Bytes → α → Prop}
    (hp : ∀ s a, p s = some a ↔ D s a) (vec : Option (List Bytes)) (k : Bytes) :
    Spec.ReadsOpt vec k D ((OptionMap.fromRaw vec).get? p k) := by
  intro a
  rw [← get_ok_iff hp]
  unfold OptionMap.get?
  cases (OptionMap.fromRaw vec).get p k <;> simp [Except.toOption]

theorem getD_reads {α : Type} {p : Bytes → Option α} {D : Bytes → α → Prop}
    (hp : ∀ s a, p s = some a ↔ D s a) (vec : Option (List Bytes)) (k : Bytes) (d : α) :
    Spec.Reads vec k D d ((OptionMap.fromRaw vec).getD p k d) := by
  unfold OptionMap.getD
  have h := get?_readsOpt hp vec k
  constructor
  · intro v a h1 h2 h3
    rw [(h a).2 ⟨v, h1, h2, h3⟩]; rfl
  · intro hno
    cases hg : (OptionMap.fromRaw vec).get? p k with
    | none => rfl
    | some a =>
      obtain ⟨v, hv⟩ := (h a).1 hg
      exact absurd ⟨v, a, hv⟩ hno

end SudoPair
