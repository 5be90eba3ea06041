import Verif.Lemmas.Text
import Verif.Spec.Template
import Verif.Model.Pair
import Verif.Spec.Environment
/-
C26, C27, C28: the prompt-template language.
-/
namespace SudoPair
open Spec

theorem takeWhileRef_cons_ne {e b : UInt8} {bs : Bytes} (h : b ≠ e) :
    TemplateSpec.takeWhileRef e (b :: bs) =
      (b :: (TemplateSpec.takeWhileRef e bs).1, (TemplateSpec.takeWhileRef e bs).2) := by
  rw [TemplateSpec.takeWhileRef]; simp [h]

theorem takeWhileRef_cons_eq {e : UInt8} {bs : Bytes} :
    TemplateSpec.takeWhileRef e (e :: bs) = ([], bs) := by
  rw [TemplateSpec.takeWhileRef]; simp

theorem expand_nil (t : TemplateSpec) : t.expand [] = [] := by
  rw [TemplateSpec.expand]

theorem expand_esc_nil (t : TemplateSpec) : t.expand [t.escape] = [] := by
  rw [TemplateSpec.expand]
  split
  · rw [takeWhileRef_cons_eq]
  · rename_i byte rest h; rw [takeWhileRef_cons_eq] at h; simp at h

theorem expand_esc (t : TemplateSpec) (b : UInt8) (s : Bytes) :
    t.expand (t.escape :: b :: s) = (t.get b).getD [b] ++ t.expand s := by
  rw [TemplateSpec.expand]
  split
  · rename_i h; rw [takeWhileRef_cons_eq] at h; simp at h
  · rename_i byte rest h
    rw [takeWhileRef_cons_eq] at h ⊢
    simp only [List.cons.injEq] at h
    obtain ⟨rfl, rfl⟩ := h
    cases t.get b <;> simp

theorem expand_lit (t : TemplateSpec) {b : UInt8} (s : Bytes) (hb : b ≠ t.escape) :
    t.expand (b :: s) = b :: t.expand s := by
  rw [TemplateSpec.expand]
  cases s with
  | nil =>
    split
    · rw [takeWhileRef_cons_ne hb]; simp [TemplateSpec.takeWhileRef, expand_nil]
    · rename_i byte rest h
      rw [takeWhileRef_cons_ne hb] at h
      simp [TemplateSpec.takeWhileRef] at h
  | cons c s =>
    rw [TemplateSpec.expand]
    split <;> rename_i h <;> rw [takeWhileRef_cons_ne hb] at h ⊢ <;> simp only at h
    · split <;> rename_i h' <;> rw [h] at h' <;> simp at h' <;> rfl
    · split <;> rename_i h2 <;> split <;> rename_i h' <;> rw [h] at h' <;> simp at h' <;>
        obtain ⟨rfl, rfl⟩ := h' <;> simp [h2]

/-- Every template has at most one expansion according to the language definition. -/
theorem expands_unique {e : UInt8} {val : UInt8 → Option Bytes} {s t : Bytes}
    (h : Expands e val s t) : ∀ {t'}, Expands e val s t' → t = t' := by
  induction h with
  | nil => intro t' h'; cases h'; rfl
  | lit hb _ ih =>
    intro t' h'
    cases h' with
    | lit _ h' => rw [ih h']
    | sub => exact absurd rfl hb
    | raw => exact absurd rfl hb
    | trailing => exact absurd rfl hb
  | sub hv _ ih =>
    intro t' h'
    cases h' with
    | lit hb _ => exact absurd rfl hb
    | sub hv' h' => rw [hv] at hv'; cases hv'; rw [ih h']
    | raw hv' _ => rw [hv] at hv'; cases hv'
  | raw hv _ ih =>
    intro t' h'
    cases h' with
    | lit hb _ => exact absurd rfl hb
    | sub hv' h' => rw [hv] at hv'; cases hv'
    | raw hv' h' => rw [ih h']
  | trailing =>
    intro t' h'
    cases h' with
    | lit hb _ => exact absurd rfl hb
    | trailing => rfl

theorem expand_expands (t : TemplateSpec) : ∀ n (s : Bytes), s.length ≤ n →
    Expands t.escape t.get s (t.expand s) := by
  intro n
  induction n with
  | zero =>
    intro s hs
    have : s = [] := List.eq_nil_of_length_eq_zero (by omega)
    subst this; rw [expand_nil]; exact .nil
  | succ n ih =>
    intro s hs
    cases s with
    | nil => rw [expand_nil]; exact .nil
    | cons b s =>
      by_cases hb : b = t.escape
      · subst hb
        cases s with
        | nil => rw [expand_esc_nil]; exact .trailing
        | cons c s =>
          rw [expand_esc]
          have := ih s (by simp at hs; omega)
          cases hg : t.get c with
          | none => exact .raw hg this
          | some x => exact .sub hg this
      · rw [expand_lit t s hb]
        exact .lit hb (ih s (by simp at hs; omega))

/-- C26: for every template, escape byte and table, `expand` computes exactly the expansion defined by
the language. -/
theorem C26_template (t : TemplateSpec) (s r : Bytes) :
    t.expand s = r ↔ Expands t.escape t.get s r := by
  have h := expand_expands t s.length s (Nat.le_refl _)
  constructor
  · rintro rfl; exact h
  · intro h'; exact expands_unique h h'

/-- C26: a spec made from a finished table uses that table, and `%`.  A `HashMap` has one value for a key. -/
theorem C26_from_map (m : List (UInt8 × Bytes))
    (vars : UInt8 → Option Bytes) (hv : ∀ k v, vars k = some v ↔ (k, v) ∈ m) (s r : Bytes) :
    (TemplateSpec.ofMap m).expand s = r ↔ Expands 37 vars s r := by
  have hget : (TemplateSpec.ofMap m).get = vars := by
    funext k
    unfold TemplateSpec.get TemplateSpec.ofMap
    simp only
    cases hf : m.find? (fun e => decide (e.1 = k)) with
    | none =>
      cases hk : vars k with
      | none => rfl
      | some v =>
        have := List.find?_eq_none.1 hf (k, v) ((hv k v).1 hk)
        simp at this
    | some e =>
      have h1 := List.find?_some hf
      simp only [decide_eq_true_eq] at h1
      subst h1
      exact ((hv e.1 e.2).2 (List.mem_of_find?_eq_some hf)).symm
  rw [C26_template, hget]
  rfl

example : (TemplateSpec.ofMap [(120, b! "abc")]).expand (b! "a%xb%%") = b! "aabcb%" := by decide +kernel

/-- C26: the table behind `get` is the one built by `replace`: the last definition of a byte counts,
and a fresh spec has none. -/
theorem C26_table (t : TemplateSpec) (e k k' : UInt8) (v : Bytes) :
    (t.replace k v).get k' = (if k' = k then some v else t.get k') ∧
    (t.replace k v).escape = t.escape ∧
    (TemplateSpec.withEscape e).get k = none ∧ (TemplateSpec.withEscape e).escape = e ∧
    TemplateSpec.new.escape = 37 := by
  refine ⟨?_, rfl, rfl, rfl, rfl⟩
  unfold TemplateSpec.get TemplateSpec.replace
  by_cases h : k' = k
  · simp [h]
  · simp only [List.find?_cons]
    have h2 : ¬ k = k' := fun h3 => h h3.symm
    simp only [h2, decide_false, h, if_false]
    congr 1
    rw [List.find?_filter]
    congr 1
    funext x
    by_cases hx : x.1 = k' <;> simp [hx, h]

/-! ### C27 -/

/-- C27: non-recursive.  The expansion of a sequence of tokens is the sequence of the tokens' own
meanings, whatever text those meanings consist of. -/
theorem C27_tokens (t : TemplateSpec) (toks : List Tok) (h : ∀ k ∈ toks, k.Ok t.escape) :
    t.expand (toks.flatMap (Tok.render t.escape)) = toks.flatMap (Tok.meaning t.get) := by
  induction toks with
  | nil => exact expand_nil t
  | cons k toks ih =>
    have ih := ih (fun x hx => h x (by simp [hx]))
    cases k with
    | lit b =>
      have hb : b ≠ t.escape := h (.lit b) (by simp)
      simp only [List.flatMap_cons, Tok.render, Tok.meaning, List.singleton_append]
      rw [expand_lit t _ hb, ih]
    | esc b =>
      simp only [List.flatMap_cons, Tok.render, Tok.meaning, List.cons_append, List.nil_append]
      rw [expand_esc, ih]

/-- Every template is a sequence of tokens, possibly followed by a single escape byte. -/
theorem tokenize (e : UInt8) : ∀ n (s : Bytes), s.length ≤ n → ∃ toks : List Tok,
    (∀ k ∈ toks, k.Ok e) ∧ (s = toks.flatMap (Tok.render e) ∨ s = toks.flatMap (Tok.render e) ++ [e]) := by
  intro n
  induction n with
  | zero =>
    intro s hs
    have : s = [] := List.eq_nil_of_length_eq_zero (by omega)
    subst this; exact ⟨[], by simp, Or.inl rfl⟩
  | succ n ih =>
    intro s hs
    cases s with
    | nil => exact ⟨[], by simp, Or.inl rfl⟩
    | cons b s =>
      by_cases hb : b = e
      · subst hb
        cases s with
        | nil => exact ⟨[], by simp, Or.inr rfl⟩
        | cons c s =>
          obtain ⟨toks, h1, h2⟩ := ih s (by simp at hs; omega)
          refine ⟨.esc c :: toks, ?_, ?_⟩
          · simpa [Tok.Ok] using h1
          · rcases h2 with h2 | h2
            · left; rw [h2]; simp [Tok.render]
            · right; rw [h2]; simp [Tok.render]
      · obtain ⟨toks, h1, h2⟩ := ih s (by simp at hs; omega)
        refine ⟨.lit b :: toks, ?_, ?_⟩
        · intro k hk
          simp only [List.mem_cons] at hk
          rcases hk with rfl | hk
          · exact hb
          · exact h1 k hk
        · rcases h2 with h2 | h2
          · left; rw [h2]; simp [Tok.render]
          · right; rw [h2]; simp [Tok.render]

theorem trailingEscapes_snoc_eq (e : UInt8) (s : Bytes) :
    trailingEscapes e (s ++ [e]) = trailingEscapes e s + 1 := by
  simp [trailingEscapes]

theorem trailingEscapes_snoc_ne {e b : UInt8} (s : Bytes) (h : b ≠ e) :
    trailingEscapes e (s ++ [b]) = 0 := by
  simp [trailingEscapes, h]

theorem trailingEscapes_toks (e : UInt8) (toks : List Tok) (h : ∀ k ∈ toks, k.Ok e) :
    trailingEscapes e (toks.flatMap (Tok.render e)) % 2 = 0 := by
  suffices ∀ rev : List Tok, (∀ k ∈ rev, k.Ok e) →
      trailingEscapes e (rev.reverse.flatMap (Tok.render e)) % 2 = 0 by
    have := this toks.reverse (by simpa using h)
    simpa using this
  intro rev
  induction rev with
  | nil => intro _; rfl
  | cons k rev ih =>
    intro h
    have ih := ih (fun x hx => h x (by simp [hx]))
    simp only [List.reverse_cons, List.flatMap_append, List.flatMap_cons, List.flatMap_nil,
      List.append_nil]
    cases k with
    | lit b =>
      have hb : b ≠ e := h (.lit b) (by simp)
      rw [Tok.render, trailingEscapes_snoc_ne _ hb]
    | esc b =>
      rw [Tok.render, show ([e, b] : Bytes) = [e] ++ [b] from rfl, ← List.append_assoc]
      by_cases hb : b = e
      · subst hb; rw [trailingEscapes_snoc_eq, trailingEscapes_snoc_eq]; omega
      · rw [trailingEscapes_snoc_ne _ hb]

/-- C27: compositional.  If `a` does not end in an unpaired escape byte (an odd number of them), the
expansion of `a ++ b` is the concatenation of the expansions. -/
theorem C27_append (t : TemplateSpec) (a b : Bytes) (h : trailingEscapes t.escape a % 2 = 0) :
    t.expand (a ++ b) = t.expand a ++ t.expand b := by
  obtain ⟨toks, h1, h2⟩ := tokenize t.escape a.length a (Nat.le_refl _)
  have ha : a = toks.flatMap (Tok.render t.escape) := by
    rcases h2 with h2 | h2
    · exact h2
    · rw [h2, trailingEscapes_snoc_eq] at h
      have := trailingEscapes_toks t.escape toks h1
      omega
  subst ha
  clear h2 h
  induction toks with
  | nil => simp [expand_nil]
  | cons k toks ih =>
    have ih := ih (fun x hx => h1 x (by simp [hx]))
    cases k with
    | lit c =>
      have hc : c ≠ t.escape := h1 (.lit c) (by simp)
      simp only [List.flatMap_cons, Tok.render, List.cons_append, List.nil_append]
      rw [expand_lit t _ hc, expand_lit t _ hc, ih, List.cons_append]
    | esc c =>
      simp only [List.flatMap_cons, Tok.render, List.cons_append, List.nil_append]
      rw [expand_esc, expand_esc, ih, List.append_assoc]

/-- C27: an unpaired escape at the end of the first part captures the first byte of the second, so
the hypothesis of `C27_append` is needed: `expand (a ++ [e] ++ [c] ++ b)` is the expansion of `a`,
then `c`'s meaning, then that of `b`. -/
theorem C27_append_unpaired (t : TemplateSpec) (a b : Bytes) (c : UInt8)
    (h : trailingEscapes t.escape a % 2 = 0) :
    t.expand (a ++ [t.escape] ++ (c :: b)) = t.expand a ++ (t.get c).getD [c] ++ t.expand b := by
  rw [List.append_assoc, C27_append t a _ h]
  simp only [List.cons_append, List.nil_append]
  rw [expand_esc, List.append_assoc]

/-- C27: doubling the escape byte protects any text (as long as the escape byte itself has no
definition). -/
theorem C27_protect (t : TemplateSpec) (s : Bytes) (h : t.get t.escape = none) :
    t.expand (protect t.escape s) = s := by
  unfold protect
  induction s with
  | nil => exact expand_nil t
  | cons b s ih =>
    simp only [List.flatMap_cons]
    by_cases hb : b = t.escape
    · subst hb
      simp only [if_true, List.cons_append, List.nil_append]
      rw [expand_esc, ih, h]; rfl
    · simp only [hb, if_false, List.cons_append, List.nil_append]
      rw [expand_lit t _ hb, ih]

/-- Non-vacuity for C27: a table whose expansion contains escapes, and both parities. -/
example : ((TemplateSpec.new.replace 120 (b! "%y %%")).replace 121 (b! "BUG")).expand (b! "a%x%") =
      b! "a%y %%" ∧ trailingEscapes 37 (b! "a%x%%") % 2 = 0 ∧ trailingEscapes 37 (b! "a%%%") % 2 = 1 ∧
    (TemplateSpec.new.replace 120 (b! "%y %%")).get 37 = none := by
  refine ⟨?_, by decide, by decide, by decide⟩
  rw [C26_template]
  refine .lit (by decide) (.sub (x := b! "%y %%") (by decide) .trailing)

end SudoPair
