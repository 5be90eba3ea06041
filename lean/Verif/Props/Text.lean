import Verif.Lemmas.Text
import Verif.Lemmas.Utf8
/-
C29, C30, C31, C34: how option vectors, integers, lists and strings are read.
-/
namespace SudoPair

/-! ### C29: option vectors -/

/-- C29: a key has value `v` in the parsed map iff the last entry with that key says so (split at the
first `=`; no `=`: key and value are the whole entry; a NULL vector is empty). -/
theorem C29_option_vector (vec : Option (List Bytes)) (k v : Bytes) :
    (OptionMap.fromRaw vec).getBytes k = some v ↔ Spec.Value vec k v :=
  fromRaw_getBytes vec k v

/-- C29: a key is absent iff no entry has that key. -/
theorem C29_absent (vec : Option (List Bytes)) (k : Bytes) :
    (OptionMap.fromRaw vec).getBytes k = none ↔
      ∀ e ∈ vec.getD [], ∀ v, ¬ Spec.Entry e k v := by
  constructor
  · intro h e he v hent
    cases vec with
    | none => simp at he
    | some es =>
      simp only [Option.getD_some] at he
      -- the last entry with the key determines a value
      have : ∃ v, (OptionMap.fromRaw (some es)).getBytes k = some v := by
        simp only [OptionMap.fromRaw, getBytes_foldl]
        cases hf : es.reverse.find? (fun e => decide ((OptionMap.splitEntry e).1 = k)) with
        | some x => simp
        | none =>
          rw [List.find?_eq_none] at hf
          have := hf e (by simpa using he)
          rw [entry_iff] at hent
          simp [hent] at this
      obtain ⟨v', hv'⟩ := this
      rw [h] at hv'; simp at hv'
  · intro h
    cases hg : (OptionMap.fromRaw vec).getBytes k with
    | none => rfl
    | some v =>
      obtain ⟨pre, e, post, rfl, hent, _⟩ := (fromRaw_getBytes vec k v).1 hg
      exact absurd hent (h e (by simp) v)

/-- C29: appending an entry changes the value of its own key and of no other key. -/
theorem C29_append (es : List Bytes) (e k v k' : Bytes) (he : Spec.Entry e k v) :
    (OptionMap.fromRaw (some (es ++ [e]))).getBytes k' =
      if k = k' then some v else (OptionMap.fromRaw (some es)).getBytes k' := by
  rw [entry_iff] at he
  simp only [OptionMap.fromRaw, List.foldl_append, List.foldl_cons, List.foldl_nil]
  rw [getBytes_insert, he]

/-- C29: the order of the entries is irrelevant when their keys are distinct. -/
theorem C29_order_irrelevant (es es' : List Bytes) (hperm : es.Perm es')
    (hdistinct : es.Pairwise (fun e f => ∀ k v w, Spec.Entry e k v → ¬ Spec.Entry f k w)) (k : Bytes) :
    (OptionMap.fromRaw (some es)).getBytes k = (OptionMap.fromRaw (some es')).getBytes k := by
  -- with distinct keys, a value is given by whichever entry has the key
  have key : ∀ (es : List Bytes),
      es.Pairwise (fun e f => ∀ k v w, Spec.Entry e k v → ¬ Spec.Entry f k w) → ∀ v,
      (OptionMap.fromRaw (some es)).getBytes k = some v ↔ ∃ e ∈ es, Spec.Entry e k v := by
    intro es hd v
    rw [fromRaw_getBytes]
    constructor
    · rintro ⟨pre, e, post, h, hent, _⟩
      simp only [Option.some.injEq] at h
      exact ⟨e, by rw [h]; simp, hent⟩
    · rintro ⟨e, he, hent⟩
      obtain ⟨pre, post, rfl⟩ := List.append_of_mem he
      refine ⟨pre, e, post, rfl, hent, ?_⟩
      intro e' he' v'
      rw [List.pairwise_append] at hd
      have := (List.pairwise_cons.1 hd.2.1).1 e' he'
      exact this k v v' hent
  have hd' : es'.Pairwise (fun e f => ∀ k v w, Spec.Entry e k v → ¬ Spec.Entry f k w) := by
    refine hperm.pairwise hdistinct ?_
    intro e f h k v w hf he
    exact h k w v he hf
  apply Option.ext
  intro v
  rw [key es hdistinct v, key es' hd' v]
  exact ⟨fun ⟨e, he, h⟩ => ⟨e, hperm.mem_iff.1 he, h⟩, fun ⟨e, he, h⟩ => ⟨e, hperm.mem_iff.2 he, h⟩⟩

/-- Non-vacuity: a vector with a repeated key, a value containing `=` and a bare word. -/
example : Spec.Value (some [b! "k=a", b! "x", b! "k=b=c"]) (b! "k") (b! "b=c") ∧
    Spec.Value (some [b! "k=a", b! "x", b! "k=b=c"]) (b! "x") (b! "x") := by
  constructor
  · rw [← C29_option_vector]; decide
  · rw [← C29_option_vector]; decide

/-- Non-vacuity of `C29_order_irrelevant`'s hypothesis. -/
example : [b! "a=1", b! "b=1", b! "c"].Pairwise
    (fun e f => ∀ k v w, Spec.Entry e k v → ¬ Spec.Entry f k w) := by
  simp only [List.pairwise_cons, List.mem_cons, forall_eq_or_imp, entry_iff]
  simp [OptionMap.splitEntry, splitFirst]
  refine ⟨⟨?_, ?_⟩, ?_⟩ <;> rintro k v w rfl <;> simp

/-! ### C30: integers -/

/-- C30: reading an unsigned integer. -/
theorem C30_unsigned (bits : Nat) (s : Bytes) (n : Nat) :
    parseUInt bits s = some n ↔ Spec.DenotesU bits s n := parseUInt_iff bits s n

/-- C30: reading a signed integer. -/
theorem C30_signed (bits : Nat) (s : Bytes) (i : Int) :
    parseInt bits s = some i ↔ Spec.DenotesI bits s i := parseInt_iff bits s i

/-- C30: printing an unsigned integer and reading it back. -/
theorem C30_unsigned_roundtrip (bits n : Nat) (h : n < 2 ^ bits) :
    parseUInt bits (decNat n) = some n :=
  (parseUInt_iff ..).2 ⟨h, Or.inl (decNat_decimal n)⟩

/-- C30: printing a signed integer and reading it back. -/
theorem C30_signed_roundtrip (bits : Nat) (i : Int) (h1 : - (2 ^ (bits - 1) : Int) ≤ i)
    (h2 : i < (2 ^ (bits - 1) : Int)) : parseInt bits (decInt i) = some i := by
  refine (parseInt_iff ..).2 ⟨h1, h2, ?_⟩
  cases i with
  | ofNat n => exact Or.inl ⟨n, decNat_decimal n, rfl⟩
  | negSucc n => exact Or.inr (Or.inr ⟨decNat (n + 1), n + 1, rfl, decNat_decimal _, rfl⟩)

/-- C30: what is printed is the usual decimal notation: digits without superfluous zeros, and a minus
sign for negative numbers. -/
theorem C30_prints (n : Nat) (i : Int) : decNat n = Spec.decimal n ∧ decInt i = Spec.decimalInt i :=
  ⟨decNat_eq_decimal n, decInt_eq_decimalInt i⟩

/-- C30: a string denotes at most one integer. -/
theorem C30_unique (bits : Nat) (s : Bytes) (m n : Nat) (hm : Spec.DenotesU bits s m)
    (hn : Spec.DenotesU bits s n) : m = n := by
  rw [← parseUInt_iff] at hm hn
  rw [hm] at hn; simpa using hn

/-- Non-vacuity: leading zeros, explicit signs, the extreme values, and just beyond them. -/
example : Spec.DenotesU 32 (b! "+004294967295") 4294967295 ∧
    (¬ ∃ n, Spec.DenotesU 32 (b! "4294967296") n) ∧ (¬ ∃ n, Spec.DenotesU 32 (b! "-0") n) ∧
    Spec.DenotesI 32 (b! "-2147483648") (-2147483648) ∧
    (¬ ∃ i, Spec.DenotesI 32 (b! "2147483648") i) ∧ (¬ ∃ i, Spec.DenotesI 32 (b! "1 ") i) := by
  simp only [← parseUInt_iff, ← parseInt_iff, ← Option.isSome_iff_exists]
  decide

/-! ### C31: lists -/

/-- C31: reading a comma-separated list succeeds iff every element can be read; the result is the
elements in order. -/
theorem C31_list {α : Type} (p : Bytes → Option α) (s : Bytes) (xs : List α) :
    parseList p s = some xs ↔ Spec.DenotesList 44 (fun e x => p e = some x) s xs :=
  parseList_iff (fun _ _ => Iff.rfl) s xs

/-- C31: lists of 32-bit ids (the gid options), in terms of what the elements denote. -/
theorem C31_ids (s : Bytes) (xs : List Nat) :
    parseList (parseUInt 32) s = some xs ↔ Spec.DenotesList 44 (Spec.DenotesU 32) s xs :=
  parseList_iff (parseUInt_iff 32) s xs

/-- C31: the result is never empty. -/
theorem C31_nonempty {α : Type} (p : Bytes → Option α) (s : Bytes) (xs : List α)
    (h : parseList p s = some xs) : xs ≠ [] := by
  obtain ⟨first, rest, _, _, h3, _⟩ := (C31_list p s xs).1 h
  rintro rfl
  simp at h3

/-- C31: one bad element rejects the whole list. -/
theorem C31_bad_element {α : Type} (p : Bytes → Option α) (pre e post : Bytes)
    (hpre : pre = [] ∨ pre.getLast? = some 44) (hpost : post = [] ∨ post.head? = some 44)
    (he : (44 : UInt8) ∉ e) (hbad : p e = none) : parseList p (pre ++ e ++ post) = none := by
  have hin : e ∈ splitOn 44 (pre ++ e ++ post) := by
    obtain ⟨rest, hr⟩ := splitOn_piece hpost he
    rcases hpre with rfl | hp
    · simp [hr]
    · obtain ⟨pre', rfl⟩ := List.getLast?_eq_some_iff.1 hp
      rw [List.append_assoc, List.append_assoc, List.singleton_append, splitOn_append_sep, hr]
      simp
  exact parseAll_none hin hbad

/-- Non-vacuity: an empty or malformed element in first, middle and last position. -/
example : parseList (parseUInt 32) (b! "x,1,2") = none ∧ parseList (parseUInt 32) (b! "1,,2") = none ∧
    parseList (parseUInt 32) (b! "1,2,") = none ∧
    parseList (parseUInt 32) (b! "1,2,2") = some [1, 2, 2] := by decide

/-! ### C34: UTF-8 -/

/-- C34: string-typed options are accepted iff they are well-formed UTF-8. -/
theorem C34_utf8 (vec : Option (List Bytes)) (k v : Bytes) :
    (OptionMap.fromRaw vec).getStr k = some v ↔ Spec.Value vec k v ∧ Spec.Utf8 v := by
  unfold OptionMap.getStr
  rw [Option.bind_eq_some_iff]
  constructor
  · rintro ⟨w, hw, h⟩
    split at h
    · rename_i hu
      simp at h; subst h
      exact ⟨(fromRaw_getBytes ..).1 hw, (utf8Valid_iff w).1 hu⟩
    · simp at h
  · rintro ⟨h1, h2⟩
    exact ⟨v, (fromRaw_getBytes ..).2 h1, by rw [(utf8Valid_iff v).2 h2]; simp⟩

/-- Non-vacuity: a two-, a three- and a four-byte character are accepted; an overlong form, a
surrogate and a truncated sequence are not. -/
example : Spec.Utf8 [0xC3, 0xA9, 0xE2, 0x82, 0xAC, 0xF0, 0x9F, 0x98, 0x80] ∧
    ¬ Spec.Utf8 [0xC0, 0x80] ∧ ¬ Spec.Utf8 [0xED, 0xA0, 0x80] ∧ ¬ Spec.Utf8 [0xE2, 0x82] := by
  simp only [← utf8Valid_iff]; decide

end SudoPair
