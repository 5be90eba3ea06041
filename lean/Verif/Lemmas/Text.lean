import Verif.Model.OptionMap
import Verif.Spec.Text
/-
Text-level lemmas: option vectors, decimals, lists.
-/
namespace SudoPair

/-! ### Option vectors -/

theorem splitFirst_some {sep : UInt8} {bs k v : Bytes} :
    splitFirst sep bs = some (k, v) ↔ bs = k ++ sep :: v ∧ sep ∉ k := by
  induction bs generalizing k v with
  | nil => simp [splitFirst]
  | cons b bs ih =>
    unfold splitFirst
    split
    · subst b
      constructor
      · intro h; simp at h; obtain ⟨rfl, rfl⟩ := h; simp
      · rintro ⟨h, hk⟩
        cases k with
        | nil => simp at h; simp [h]
        | cons x k => simp at h hk; exact absurd h.1 hk.1
    · rename_i hb
      simp only [Option.map_eq_some_iff, Prod.exists, Prod.mk.injEq]
      constructor
      · rintro ⟨k', v', h, rfl, rfl⟩
        obtain ⟨rfl, h2⟩ := ih.1 h
        refine ⟨rfl, ?_⟩
        simp only [List.mem_cons, not_or]
        exact ⟨fun h => hb h.symm, h2⟩
      · rintro ⟨h, hk⟩
        cases k with
        | nil => simp at h; exact absurd h.1 hb
        | cons x k =>
          simp only [List.cons_append, List.cons.injEq] at h
          simp only [List.mem_cons, not_or] at hk
          exact ⟨k, v, ih.2 ⟨h.2, hk.2⟩, by rw [h.1], rfl⟩

theorem splitFirst_none {sep : UInt8} {bs : Bytes} : splitFirst sep bs = none ↔ sep ∉ bs := by
  induction bs with
  | nil => simp [splitFirst]
  | cons b bs ih =>
    unfold splitFirst
    split
    · subst b; simp
    · rename_i hb
      simp only [Option.map_eq_none_iff, List.mem_cons, not_or]
      rw [ih]
      exact ⟨fun h => ⟨fun h' => hb h'.symm, h⟩, fun h => h.2⟩

theorem entry_iff {e k v : Bytes} : Spec.Entry e k v ↔ OptionMap.splitEntry e = (k, v) := by
  unfold Spec.Entry OptionMap.splitEntry
  cases h : splitFirst 61 e with
  | none =>
    have h' := splitFirst_none.1 h
    simp only [Prod.mk.injEq]
    constructor
    · rintro (⟨rfl, _⟩ | ⟨_, rfl, rfl⟩)
      · simp at h'
      · simp
    · rintro ⟨rfl, rfl⟩; exact Or.inr ⟨h', rfl, rfl⟩
  | some kv =>
    obtain ⟨k', v'⟩ := kv
    have h' := splitFirst_some.1 h
    simp only [Prod.mk.injEq]
    constructor
    · rintro (h2 | ⟨h2, _⟩)
      · have := splitFirst_some.2 h2
        rw [h] at this; simpa using this
      · exact absurd (by rw [h'.1]; simp) h2
    · rintro ⟨rfl, rfl⟩; exact Or.inl h'

theorem getBytes_insert (m : OptionMap) (k v k' : Bytes) :
    (m.insert k v).getBytes k' = if k = k' then some v else m.getBytes k' := by
  unfold OptionMap.getBytes OptionMap.insert
  by_cases h : k = k'
  · subst h; simp
  · simp only [List.find?_cons, h, decide_false, if_false]
    congr 1
    induction m with
    | nil => simp
    | cons e m ih =>
      by_cases he : e.1 = k
      · have : ¬ e.1 = k' := fun h' => h (he ▸ h')
        simp only [List.filter_cons, he, ne_eq, not_true_eq_false, decide_false, Bool.false_eq_true,
          if_false, List.find?_cons]
        rw [ih]; rw [he] at this; simp [this]
      · simp only [List.filter_cons, ne_eq, he, not_false_eq_true, decide_true, if_true,
          List.find?_cons]
        split
        · rfl
        · exact ih

/-- Inserting entries one after the other: the last one with the key wins. -/
theorem getBytes_foldl (es : List Bytes) (m : OptionMap) (k : Bytes) :
    (es.foldl (fun m e => m.insert (OptionMap.splitEntry e).1 (OptionMap.splitEntry e).2) m).getBytes k
      = ((es.reverse.find? (fun e => (OptionMap.splitEntry e).1 = k)).map
          (fun e => (OptionMap.splitEntry e).2)).or (m.getBytes k) := by
  induction es generalizing m with
  | nil => simp
  | cons e es ih =>
    simp only [List.foldl_cons, ih, getBytes_insert, List.reverse_cons, List.find?_append]
    cases h : es.reverse.find? (fun e => decide ((OptionMap.splitEntry e).1 = k)) with
    | some x => simp
    | none =>
      by_cases he : (OptionMap.splitEntry e).1 = k
      · simp [he]
      · simp [he]

theorem fromRaw_getBytes (vec : Option (List Bytes)) (k v : Bytes) :
    (OptionMap.fromRaw vec).getBytes k = some v ↔ Spec.Value vec k v := by
  unfold Spec.Value
  cases vec with
  | none => simp [OptionMap.fromRaw, OptionMap.getBytes]
  | some es =>
    simp only [OptionMap.fromRaw, getBytes_foldl]
    have h0 : OptionMap.getBytes [] k = none := rfl
    rw [h0, Option.or_none]
    simp only [Option.map_eq_some_iff, Option.some.injEq]
    constructor
    · rintro ⟨e, he, hv⟩
      rw [List.find?_eq_some_iff_append] at he
      obtain ⟨hk, pre, post, hrev, hpre⟩ := he
      refine ⟨post.reverse, e, pre.reverse, ?_, ?_, ?_⟩
      · have := congrArg List.reverse hrev
        simpa using this
      · rw [entry_iff]
        simp only [decide_eq_true_eq] at hk
        rw [← hk, ← hv]
      · intro e' he' v' hent
        rw [entry_iff] at hent
        have := hpre e' (by simpa using he')
        simp [hent] at this
    · rintro ⟨pre, e, post, rfl, hent, hpost⟩
      rw [entry_iff] at hent
      refine ⟨e, ?_, by rw [hent]⟩
      rw [List.find?_eq_some_iff_append]
      refine ⟨by simp [hent], post.reverse, pre.reverse, by simp, ?_⟩
      intro e' he'
      simp only [List.mem_reverse] at he'
      simp only [Bool.not_eq_true', decide_eq_false_iff_not]
      intro hk
      apply hpost e' he' (OptionMap.splitEntry e').2
      rw [entry_iff, ← hk]

/-! ### Decimals -/

theorem digit?_some {b : UInt8} {d : Nat} :
    digit? b = some d ↔ Spec.IsDigit b ∧ d = b.toNat - 48 := by
  unfold digit? Spec.IsDigit
  simp only [UInt8.le_iff_toNat_le]
  have h48 : (48 : UInt8).toNat = 48 := rfl
  have h57 : (57 : UInt8).toNat = 57 := rfl
  rw [h48, h57]
  split
  · rename_i h
    simp only [Option.some.injEq]
    exact ⟨fun e => ⟨h, e.symm⟩, fun e => e.2.symm⟩
  · rename_i h
    simp [h]

theorem digits_some {max acc : Nat} {ds : Bytes} {n : Nat} (hacc : acc ≤ max) :
    digits max acc ds = some n ↔
      (∀ d ∈ ds, Spec.IsDigit d) ∧ ds.foldl (fun a d => a * 10 + (d.toNat - 48)) acc = n ∧ n ≤ max := by
  induction ds generalizing acc with
  | nil => simp only [digits, Option.some.injEq, List.not_mem_nil, false_implies, implies_true,
      List.foldl_nil, true_and]; constructor
           · rintro rfl; exact ⟨rfl, hacc⟩
           · exact fun h => h.1
  | cons b ds ih =>
    have mono : ∀ (ds : Bytes) (a : Nat),
        a ≤ ds.foldl (fun a d => a * 10 + (d.toNat - 48)) a := by
      intro ds
      induction ds with
      | nil => simp
      | cons d ds ih => intro a; simp only [List.foldl_cons]; exact Nat.le_trans (by omega) (ih _)
    simp only [digits, Option.bind_eq_bind, Option.bind_eq_some_iff, List.mem_cons, forall_eq_or_imp,
      List.foldl_cons]
    constructor
    · rintro ⟨d, hd, h⟩
      obtain ⟨hd1, rfl⟩ := digit?_some.1 hd
      split at h
      · rename_i hle
        obtain ⟨h1, h2, h3⟩ := (ih hle).1 h
        exact ⟨⟨hd1, h1⟩, h2, h3⟩
      · simp at h
    · rintro ⟨⟨hd1, h1⟩, h2, h3⟩
      refine ⟨b.toNat - 48, digit?_some.2 ⟨hd1, rfl⟩, ?_⟩
      have hle : acc * 10 + (b.toNat - 48) ≤ max := by
        have := mono ds (acc * 10 + (b.toNat - 48)); omega
      rw [if_pos hle]
      exact (ih hle).2 ⟨h1, h2, h3⟩

theorem digits_decimal {max : Nat} {ds : Bytes} {n : Nat} (hne : ds ≠ []) :
    digits max 0 ds = some n ↔ Spec.Decimal ds n ∧ n ≤ max := by
  rw [digits_some (Nat.zero_le _)]
  simp only [Spec.Decimal, Spec.decVal]
  exact ⟨fun ⟨a, b, c⟩ => ⟨⟨hne, a, b⟩, c⟩, fun ⟨⟨_, a, b⟩, c⟩ => ⟨a, b, c⟩⟩

theorem not_decimal_sign {ds : Bytes} {n : Nat} {b : UInt8} (hb : b = 43 ∨ b = 45) :
    ¬ Spec.Decimal (b :: ds) n := by
  rintro ⟨_, h, _⟩
  have := h b (by simp)
  unfold Spec.IsDigit at this
  rcases hb with rfl | rfl <;> revert this <;> decide

theorem not_decimal_nil {n : Nat} : ¬ Spec.Decimal [] n := fun h => h.1 rfl

theorem parseUInt_iff (bits : Nat) (s : Bytes) (n : Nat) :
    parseUInt bits s = some n ↔ Spec.DenotesU bits s n := by
  have hpos : 0 < 2 ^ bits := Nat.two_pow_pos bits
  unfold Spec.DenotesU
  unfold parseUInt
  split
  · simp [not_decimal_nil]
  · simp [not_decimal_nil, not_decimal_sign]
  · simp [not_decimal_sign]
  · rename_i _ ds hds
    have hne : ds ≠ [] := hds
    rw [digits_decimal hne]
    constructor
    · rintro ⟨h1, h2⟩; exact ⟨by omega, Or.inr ⟨ds, rfl, h1⟩⟩
    · rintro ⟨h1, h2 | ⟨ds', h2, h3⟩⟩
      · exact absurd h2 (not_decimal_sign (Or.inl rfl))
      · simp at h2; subst h2; exact ⟨h3, by omega⟩
  · rename_i h1 h2 h3 h4
    have hne : s ≠ [] := fun h => h1 h
    rw [digits_decimal hne]
    constructor
    · rintro ⟨h, h'⟩; exact ⟨by omega, Or.inl h⟩
    · rintro ⟨h, h' | ⟨ds', h', _⟩⟩
      · exact ⟨h', by omega⟩
      · exact absurd h' (h4 ds')

theorem parseInt_iff (bits : Nat) (s : Bytes) (i : Int) :
    parseInt bits s = some i ↔ Spec.DenotesI bits s i := by
  have hpos : 0 < 2 ^ (bits - 1) := Nat.two_pow_pos _
  have hcast : (2 ^ (bits - 1) : Int) = ((2 ^ (bits - 1) : Nat) : Int) := by simp
  unfold Spec.DenotesI
  rw [hcast]
  unfold parseInt
  generalize 2 ^ (bits - 1) = N at hpos
  split
  · simp [not_decimal_nil]
  · simp [not_decimal_nil, not_decimal_sign]
  · simp [not_decimal_nil, not_decimal_sign]
  · rename_i _ ds hds
    have hne : ds ≠ [] := hds
    simp only [Option.map_eq_some_iff, digits_decimal hne]
    constructor
    · rintro ⟨n, ⟨h1, h2⟩, rfl⟩
      exact ⟨by simp only [Int.ofNat_eq_natCast]; omega, by simp only [Int.ofNat_eq_natCast]; omega,
        Or.inr (Or.inl ⟨ds, n, rfl, h1, rfl⟩)⟩
    · rintro ⟨h1, h2, ⟨n, h, _⟩ | ⟨ds', n, h, h3, rfl⟩ | ⟨ds', n, h, _⟩⟩
      · exact absurd h (not_decimal_sign (Or.inl rfl))
      · simp at h; subst h; exact ⟨n, ⟨h3, by omega⟩, rfl⟩
      · simp at h
  · rename_i _ ds hds
    have hne : ds ≠ [] := hds
    simp only [Option.map_eq_some_iff, digits_decimal hne]
    constructor
    · rintro ⟨n, ⟨h1, h2⟩, rfl⟩
      exact ⟨by simp only [Int.ofNat_eq_natCast]; omega, by simp only [Int.ofNat_eq_natCast]; omega,
        Or.inr (Or.inr ⟨ds, n, rfl, h1, rfl⟩)⟩
    · rintro ⟨h1, h2, ⟨n, h, _⟩ | ⟨ds', n, h, h3, rfl⟩ | ⟨ds', n, h, h3, rfl⟩⟩
      · exact absurd h (not_decimal_sign (Or.inr rfl))
      · simp at h
      · simp at h; subst h; exact ⟨n, ⟨h3, by omega⟩, rfl⟩
  · rename_i h1 h2 h3 h4 h5
    have hne : s ≠ [] := fun h => h1 h
    simp only [Option.map_eq_some_iff, digits_decimal hne]
    constructor
    · rintro ⟨n, ⟨h, h'⟩, rfl⟩
      exact ⟨by simp only [Int.ofNat_eq_natCast]; omega, by simp only [Int.ofNat_eq_natCast]; omega,
        Or.inl ⟨n, h, rfl⟩⟩
    · rintro ⟨h, h', ⟨n, h6, rfl⟩ | ⟨ds', n, h6, _⟩ | ⟨ds', n, h6, _⟩⟩
      · exact ⟨n, ⟨h6, by omega⟩, rfl⟩
      · exact absurd h6 (h4 ds')
      · exact absurd h6 (h5 ds')

/-! ### Printing decimals -/

theorem decNat_lt (n : Nat) (h : n < 10) : decNat n = [UInt8.ofNat (48 + n)] := by
  rw [decNat]; simp [h]

theorem decNat_ge (n : Nat) (h : ¬ n < 10) :
    decNat n = decNat (n / 10) ++ [UInt8.ofNat (48 + n % 10)] := by
  rw [decNat]; simp [h]

theorem toNat_digit {d : Nat} (h : d < 10) : (UInt8.ofNat (48 + d)).toNat = 48 + d := by
  simp; omega

theorem decVal_append (xs ys : Bytes) :
    Spec.decVal (xs ++ ys) = ys.foldl (fun a d => a * 10 + (d.toNat - 48)) (Spec.decVal xs) := by
  simp [Spec.decVal, List.foldl_append]

theorem decNat_decimal (n : Nat) : Spec.Decimal (decNat n) n := by
  induction n using Nat.strongRecOn with
  | ind n ih =>
    by_cases h : n < 10
    · rw [decNat_lt n h]
      refine ⟨by simp, ?_, ?_⟩
      · simp only [List.mem_singleton, forall_eq, Spec.IsDigit, toNat_digit h]; omega
      · simp only [Spec.decVal, List.foldl_cons, List.foldl_nil, toNat_digit h]; omega
    · rw [decNat_ge n h]
      have hm : n % 10 < 10 := Nat.mod_lt _ (by decide)
      obtain ⟨h1, h2, h3⟩ := ih (n / 10) (by omega)
      refine ⟨by simp, ?_, ?_⟩
      · intro d hd
        simp only [List.mem_append, List.mem_singleton] at hd
        rcases hd with hd | rfl
        · exact h2 d hd
        · simp only [Spec.IsDigit, toNat_digit hm]; omega
      · rw [decVal_append, h3]
        simp only [List.foldl_cons, List.foldl_nil, toNat_digit hm]; omega

theorem decNat_injective {m n : Nat} (h : decNat m = decNat n) : m = n := by
  have h1 := (decNat_decimal m).2.2
  have h2 := (decNat_decimal n).2.2
  rw [h] at h1; omega

theorem decNat_ne_nil (n : Nat) : decNat n ≠ [] := (decNat_decimal n).1

theorem decNat_digit {n : Nat} {b : UInt8} (h : b ∈ decNat n) : Spec.IsDigit b :=
  (decNat_decimal n).2.1 b h

theorem decNat_eq_decimal (n : Nat) : decNat n = Spec.decimal n := by
  have hdig : ∀ m, m < 10 → UInt8.ofNat (48 + m) = UInt8.ofNat (Nat.digitChar m).toNat := by
    decide
  induction n using Nat.strongRecOn with
  | _ n ih =>
    by_cases h : n < 10
    · rw [decNat_lt n h, Spec.decimal, Nat.toDigits_of_lt_base h]
      simp [hdig n h]
    · rw [decNat_ge n h, Spec.decimal, Nat.toDigits_of_base_le (by decide) (by omega), List.map_append,
        ih _ (by omega)]
      simp [Spec.decimal, hdig _ (Nat.mod_lt n (by decide))]

theorem decInt_eq_decimalInt (i : Int) : decInt i = Spec.decimalInt i := by
  cases i with
  | ofNat m =>
    unfold Spec.decimalInt
    rw [if_pos (show 0 ≤ Int.ofNat m by simp), ← decNat_eq_decimal]
    rfl
  | negSucc m =>
    unfold Spec.decimalInt
    rw [if_neg (show ¬ 0 ≤ Int.negSucc m by simp), ← decNat_eq_decimal]
    rfl

/-- The numbers in the specifications are the numbers that the program prints. -/
theorem decimal_fun : Spec.decimal = decNat := funext fun n => (decNat_eq_decimal n).symm
theorem decimalInt_fun : Spec.decimalInt = decInt := funext fun i => (decInt_eq_decimalInt i).symm

theorem decInt_injective {i j : Int} (h : decInt i = decInt j) : i = j := by
  have key : ∀ m n : Nat, decNat m ≠ 45 :: decNat n := by
    intro m n h
    have := decNat_digit (n := m) (b := 45) (by rw [h]; simp)
    unfold Spec.IsDigit at this; revert this; decide
  cases i <;> cases j <;> simp only [decInt] at h
  · rw [decNat_injective h]
  · exact absurd h (key _ _)
  · exact absurd h.symm (key _ _)
  · simp only [List.cons.injEq, true_and] at h
    have := decNat_injective h
    congr 1; omega

/-! ### Lists -/

theorem splitOn_ne_nil (sep : UInt8) (bs : Bytes) : splitOn sep bs ≠ [] := by
  induction bs with
  | nil => simp [splitOn]
  | cons b bs ih =>
    unfold splitOn
    split
    · simp
    · split <;> simp

/-- `splitOn` is the unique decomposition into separator-free pieces. -/
theorem splitOn_eq_cons {sep : UInt8} {bs first : Bytes} {rest : List Bytes} :
    splitOn sep bs = first :: rest ↔
      bs = first ++ rest.flatMap (fun p => sep :: p) ∧ ∀ p ∈ first :: rest, sep ∉ p := by
  induction bs generalizing first rest with
  | nil =>
    simp only [splitOn, List.cons.injEq]
    constructor
    · rintro ⟨rfl, rfl⟩; simp
    · rintro ⟨h, _⟩
      have h := h.symm
      simp only [List.append_eq_nil_iff] at h
      refine ⟨h.1.symm, ?_⟩
      cases rest with
      | nil => rfl
      | cons r rs => simp at h
  | cons b bs ih =>
    unfold splitOn
    split
    · rename_i hb
      subst hb
      simp only [List.cons.injEq]
      constructor
      · rintro ⟨rfl, h⟩
        cases rest with
        | nil => exact absurd h (splitOn_ne_nil _ _)
        | cons r rs =>
          obtain ⟨h1, h2⟩ := ih.1 h
          refine ⟨by simp [h1], ?_⟩
          intro p hp
          simp only [List.mem_cons] at hp
          rcases hp with rfl | hp
          · simp
          · exact h2 p (by simpa using hp)
      · rintro ⟨h, h2⟩
        cases first with
        | nil =>
          refine ⟨rfl, ?_⟩
          cases rest with
          | nil => simp at h
          | cons r rs =>
            rw [ih]
            simp at h
            refine ⟨by simp [h], fun p hp => h2 p (by simp at hp ⊢; right; exact hp)⟩
        | cons f fs =>
          simp only [List.cons_append, List.cons.injEq] at h
          exact absurd (by rw [h.1]; simp) (h2 (f :: fs) (by simp))
    · rename_i hb
      cases hs : splitOn sep bs with
      | nil => exact absurd hs (splitOn_ne_nil _ _)
      | cons p ps =>
        obtain ⟨h1, h2⟩ := ih.1 hs
        simp only [List.cons.injEq]
        constructor
        · rintro ⟨rfl, rfl⟩
          refine ⟨by simp [h1], ?_⟩
          intro q hq
          simp only [List.mem_cons] at hq
          rcases hq with rfl | hq
          · simp only [List.mem_cons, not_or]
            exact ⟨fun h => hb h.symm, h2 p (by simp)⟩
          · exact h2 q (by simp [hq])
        · rintro ⟨h, h3⟩
          cases first with
          | nil =>
            cases rest with
            | nil => simp at h
            | cons r rs => simp at h; exact absurd h.1 hb
          | cons f fs =>
            simp only [List.cons_append, List.cons.injEq] at h
            have := ih.2 ⟨h.2, fun q hq => by
              simp only [List.mem_cons] at hq
              rcases hq with rfl | hq
              · exact fun h' => h3 (f :: q) (by simp) (by simp [h'])
              · exact h3 q (by simp [hq])⟩
            rw [hs] at this
            simp only [List.cons.injEq] at this
            exact ⟨by rw [h.1, this.1], this.2⟩

theorem splitOn_append_sep (sep : UInt8) (x y : Bytes) :
    splitOn sep (x ++ sep :: y) = splitOn sep x ++ splitOn sep y := by
  cases hx : splitOn sep x with
  | nil => exact absurd hx (splitOn_ne_nil _ _)
  | cons f r =>
    cases hy : splitOn sep y with
    | nil => exact absurd hy (splitOn_ne_nil _ _)
    | cons g q =>
      obtain ⟨h1, h2⟩ := splitOn_eq_cons.1 hx
      obtain ⟨h3, h4⟩ := splitOn_eq_cons.1 hy
      rw [List.cons_append]
      refine splitOn_eq_cons.2 ⟨by simp [h1, h3], ?_⟩
      intro p hp
      simp only [List.mem_cons, List.mem_append] at hp
      rcases hp with rfl | hp | rfl | hp
      · exact h2 _ (by simp)
      · exact h2 p (by simp [hp])
      · exact h4 _ (by simp)
      · exact h4 p (by simp [hp])

theorem splitOn_no_sep {sep : UInt8} {e : Bytes} (he : sep ∉ e) : splitOn sep e = [e] :=
  splitOn_eq_cons.2 ⟨by simp, fun p hp => by simp at hp; subst hp; exact he⟩

theorem splitOn_piece {sep : UInt8} {e post : Bytes} (hpost : post = [] ∨ post.head? = some sep)
    (he : sep ∉ e) : ∃ rest, splitOn sep (e ++ post) = e :: rest := by
  rcases hpost with rfl | hp
  · exact ⟨[], by simp [splitOn_no_sep he]⟩
  · cases post with
    | nil => simp at hp
    | cons x post =>
      simp at hp; subst hp
      exact ⟨splitOn x post, by rw [splitOn_append_sep, splitOn_no_sep he]; rfl⟩

theorem parseAll_none {α : Type} {p : Bytes → Option α} {es : List Bytes} {e : Bytes}
    (he : e ∈ es) (hp : p e = none) : parseAll p es = none := by
  induction es with
  | nil => simp at he
  | cons x es ih =>
    simp only [List.mem_cons] at he
    rcases he with rfl | he
    · simp [parseAll, hp]
    · simp [parseAll, ih he]

theorem parseAll_some {α : Type} {p : Bytes → Option α} {es : List Bytes} {xs : List α} :
    parseAll p es = some xs ↔
      es.length = xs.length ∧ ∀ q ∈ es.zip xs, p q.1 = some q.2 := by
  induction es generalizing xs with
  | nil => cases xs <;> simp [parseAll]
  | cons e es ih =>
    simp only [parseAll, Option.bind_eq_bind, Option.bind_eq_some_iff, Option.pure_def,
      Option.some.injEq]
    cases xs with
    | nil => simp
    | cons x xs =>
      simp only [List.length_cons, List.zip_cons_cons, List.mem_cons, forall_eq_or_imp,
        Nat.add_right_cancel_iff]
      constructor
      · rintro ⟨y, hy, ys, hys, h⟩
        simp only [List.cons.injEq] at h
        obtain ⟨rfl, rfl⟩ := h
        have := ih.1 hys
        exact ⟨this.1, hy, this.2⟩
      · rintro ⟨h1, h2, h3⟩
        exact ⟨x, h2, xs, ih.2 ⟨h1, h3⟩, rfl⟩

theorem parseList_iff {α : Type} {p : Bytes → Option α} {D : Bytes → α → Prop}
    (hp : ∀ s a, p s = some a ↔ D s a) (s : Bytes) (xs : List α) :
    parseList p s = some xs ↔ Spec.DenotesList 44 D s xs := by
  unfold parseList Spec.DenotesList
  rw [parseAll_some]
  constructor
  · rintro ⟨h1, h2⟩
    cases hs : splitOn 44 s with
    | nil => exact absurd hs (splitOn_ne_nil _ _)
    | cons first rest =>
      obtain ⟨h3, h4⟩ := splitOn_eq_cons.1 hs
      rw [hs] at h1 h2
      exact ⟨first, rest, h3, h4, h1, fun q hq => (hp _ _).1 (h2 q hq)⟩
  · rintro ⟨first, rest, h3, h4, h1, h2⟩
    have hs := splitOn_eq_cons.2 ⟨h3, h4⟩
    rw [hs]
    exact ⟨h1, fun q hq => (hp _ _).2 (h2 q hq)⟩

theorem parseBool_iff (s : Bytes) (x : Bool) : parseBool s = some x ↔ Spec.DenotesB s x := by
  unfold parseBool Spec.DenotesB
  cases x
  · simp only [Bool.false_eq_true, if_false]
    split
    · rename_i h; subst h; simp
    · split <;> simp_all
  · simp only [if_true]
    split
    · rename_i h; subst h; simp
    · split <;> simp_all

theorem parseStr_iff (s t : Bytes) : parseStr s = some t ↔ Spec.DenotesS s t := by
  simp [parseStr, Spec.DenotesS]

end SudoPair
