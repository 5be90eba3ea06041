import Mathlib.Data.List.Dedup
import Verif.Props.LogText
import Verif.Props.Transcript
/-
C70, continued: what the log shows of the plugin's options.
-/
namespace SudoPair
open Spec Audit

theorem char_not_digit {c : Char} (hc : ∀ d : Fin 16, c ≠ d.val.digitChar) (n : Nat) : c ∉ Nat.toDigits 10 n := by
  intro h
  obtain ⟨d, hd, h⟩ := mem_toDigits (by omega) (by omega) n _ h
  exact hc ⟨d, hd⟩ h

theorem comma_not_digit (n : Nat) : ',' ∉ Nat.toDigits 10 n := char_not_digit (by decide) n
theorem close_not_digit (n : Nat) : '}' ∉ Nat.toDigits 10 n := char_not_digit (by decide) n

/-- A part of a list up to the first of two marks can be told from the list. -/
theorem append_marks {α : Type} {P : α → Prop} : ∀ {a b x y : List α} {z w : α}, (∀ c ∈ a, ¬ P c) → (∀ c ∈ b, ¬ P c) →
    P z → P w → a ++ z :: x = b ++ w :: y → a = b ∧ z = w ∧ x = y
  | [], [], _, _, _, _, _, _, _, _, h => by simpa using h
  | [], c :: b, _, _, z, w, _, hb, hz, _, h => absurd (by rw [← (List.cons.inj h).1]; exact hz) (hb c (List.mem_cons_self ..))
  | c :: a, [], _, _, z, w, ha, _, _, hw, h => absurd (by rw [(List.cons.inj h).1]; exact hw) (ha c (List.mem_cons_self ..))
  | c :: a, d :: b, x, y, z, w, ha, hb, hz, hw, h => by
    obtain ⟨rfl, h2⟩ := List.cons.inj h
    obtain ⟨rfl, rfl, rfl⟩ := append_marks (fun c h => ha c (List.mem_cons_of_mem _ h))
      (fun c h => hb c (List.mem_cons_of_mem _ h)) hz hw h2
    exact ⟨rfl, rfl, rfl⟩

theorem digits_marks {m n : Nat} {x y : List Char} {z w : Char} (hz : z = ',' ∨ z = '}') (hw : w = ',' ∨ w = '}')
    (h : Nat.toDigits 10 m ++ z :: x = Nat.toDigits 10 n ++ w :: y) : m = n ∧ z = w ∧ x = y := by
  have key : ∀ n, ∀ c ∈ Nat.toDigits 10 n, ¬ (c = ',' ∨ c = '}') := by
    rintro n c hc (rfl | rfl)
    · exact comma_not_digit n hc
    · exact close_not_digit n hc
  obtain ⟨h1, h2⟩ := append_marks (P := fun c => c = ',' ∨ c = '}') (key m) (key n) hz hw h
  exact ⟨toDigits_inj (by omega) (by omega) _ _ h1, h2⟩

/-- What follows a gid begins with a mark. -/
theorem gidsRest_mark (l : List Nat) (x : List Char) : ∃ z y, (z = ',' ∨ z = '}') ∧ debugGidsRest l ++ ('}' :: x) = z :: y := by
  cases l with
  | nil => exact ⟨_, _, .inr rfl, rfl⟩
  | cons g l => exact ⟨_, _, .inl rfl, rfl⟩

theorem digits_rest {m n : Nat} {l l' : List Nat} {x x' : List Char}
    (h : Nat.toDigits 10 m ++ (debugGidsRest l ++ ('}' :: x)) = Nat.toDigits 10 n ++ (debugGidsRest l' ++ ('}' :: x'))) :
    m = n ∧ debugGidsRest l ++ ('}' :: x) = debugGidsRest l' ++ ('}' :: x') := by
  obtain ⟨z, y, hz, h1⟩ := gidsRest_mark l x
  obtain ⟨z', y', hz', h2⟩ := gidsRest_mark l' x'
  rw [h1, h2] at h ⊢
  obtain ⟨h3, rfl, rfl⟩ := digits_marks hz hz' h
  exact ⟨h3, rfl⟩

theorem debugGidsRest_inj : ∀ {l l' : List Nat} {x x' : List Char},
    debugGidsRest l ++ ('}' :: x) = debugGidsRest l' ++ ('}' :: x') → l = l' ∧ x = x'
  | [], [], _, _, h => ⟨rfl, (List.cons.inj h).2⟩
  | [], _ :: _, _, _, h => by simp [debugGidsRest] at h
  | _ :: _, [], _, _, h => by simp [debugGidsRest] at h
  | g :: l, g' :: l', x, x', h => by
    simp only [debugGidsRest, List.cons_append, List.append_assoc, List.cons.injEq, true_and] at h
    obtain ⟨rfl, h2⟩ := digits_rest h
    obtain ⟨rfl, rfl⟩ := debugGidsRest_inj h2
    exact ⟨rfl, rfl⟩

theorem debugGids_inj {l l' : List Nat} {x x' : List Char} (h : debugGids l ++ x = debugGids l' ++ x') :
    l = l' ∧ x = x' := by
  have first : ∀ {n : Nat} {y : List Char} {x : List Char}, '}' :: x ≠ Nat.toDigits 10 n ++ y := by
    intro n y x h
    cases hd : Nat.toDigits 10 n with
    | nil => exact absurd hd (Nat.toDigits_ne_nil)
    | cons c r =>
      rw [hd, List.cons_append] at h
      exact close_not_digit n (by rw [hd, (List.cons.inj h).1]; exact List.mem_cons_self ..)
  cases l with
  | nil =>
    cases l' with
    | nil => simpa [debugGids] using h
    | cons g' l' =>
      simp only [debugGids, List.cons_append, List.append_assoc, List.nil_append, List.cons.injEq, true_and] at h
      exact absurd h first
  | cons g l =>
    cases l' with
    | nil =>
      simp only [debugGids, List.cons_append, List.append_assoc, List.nil_append, List.cons.injEq, true_and] at h
      exact absurd h.symm first
    | cons g' l' =>
      simp only [debugGids, List.cons_append, List.append_assoc, List.nil_append, List.cons.injEq, true_and] at h
      obtain ⟨rfl, h2⟩ := digits_rest h
      obtain ⟨rfl, rfl⟩ := debugGidsRest_inj h2
      exact ⟨rfl, rfl⟩

theorem optionsForm_inj {E : Escapes} {o o' : PluginOptions} {en ex en' ex' : List Nat}
    (h : optionsForm E o en ex = optionsForm E o' en' ex') :
    lossy o.binaryPath = lossy o'.binaryPath ∧ lossy o.userPromptPath = lossy o'.userPromptPath ∧
    lossy o.pairPromptPath = lossy o'.pairPromptPath ∧ lossy o.socketDir = lossy o'.socketDir ∧ en = en' ∧ ex = ex' := by
  unfold optionsForm at h
  obtain ⟨h1, h⟩ := debugStr_inj (List.append_cancel_left h)
  obtain ⟨h2, h⟩ := debugStr_inj (List.append_cancel_left h)
  obtain ⟨h3, h⟩ := debugStr_inj (List.append_cancel_left h)
  obtain ⟨h4, h⟩ := debugStr_inj (List.append_cancel_left h)
  obtain ⟨h5, h⟩ := debugGids_inj (List.append_cancel_left h)
  obtain ⟨h6, _⟩ := debugGids_inj (List.append_cancel_left h)
  exact ⟨h1, h2, h3, h4, h5, h6⟩

/-- **C70.**  The paths of options are always text, whatever sudo passes. -/
theorem C70_options_text (m : OptionMap) :
    Utf8 (PluginOptions.ofMap m).binaryPath ∧ Utf8 (PluginOptions.ofMap m).userPromptPath ∧
    Utf8 (PluginOptions.ofMap m).pairPromptPath ∧ Utf8 (PluginOptions.ofMap m).socketDir := by
  have key : ∀ k d, utf8Valid d = true → Utf8 (m.getD parseStr k d) := by
    intro k d hd
    rw [← utf8Valid_iff]
    unfold OptionMap.getD OptionMap.get? OptionMap.get OptionMap.getStr
    cases m.getBytes k with
    | none => simpa [Except.toOption] using hd
    | some v =>
      cases hv : utf8Valid v with
      | false => simpa [hv, Except.toOption] using hd
      | true => simp [hv, parseStr, Except.toOption]
  exact ⟨key _ _ (by decide +kernel), key _ _ (by decide +kernel), key _ _ (by decide +kernel), key _ _ (by decide +kernel)⟩

/-- **C70.**  The options that the log shows are the options: a text that options may appear as, of whatever sudo
passes, is not that of options with another path or with another set of gids. -/
theorem C70_options {E : Escapes} {m m' : OptionMap} {o o' : PluginOptions} (ho : o = .ofMap m) (ho' : o' = .ofMap m')
    {text : List Char} (h : OptionsShown E o text) (h' : OptionsShown E o' text) :
    o.binaryPath = o'.binaryPath ∧ o.userPromptPath = o'.userPromptPath ∧ o.pairPromptPath = o'.pairPromptPath ∧
    o.socketDir = o'.socketDir ∧ (∀ g, g ∈ o.gidsEnforced ↔ g ∈ o'.gidsEnforced) ∧
    (∀ g, g ∈ o.gidsExempted ↔ g ∈ o'.gidsExempted) := by
  obtain ⟨en, ex, h1, h2, rfl⟩ := h
  obtain ⟨en', ex', h1', h2', h⟩ := h'
  obtain ⟨a, b, c, d, rfl, rfl⟩ := optionsForm_inj h
  obtain ⟨u1, u2, u3, u4⟩ := C70_options_text m
  obtain ⟨v1, v2, v3, v4⟩ := C70_options_text m'
  subst ho ho'
  exact ⟨C70_lossy_inj u1 v1 a, C70_lossy_inj u2 v2 b, C70_lossy_inj u3 v3 c, C70_lossy_inj u4 v4 d,
    fun g => (h1.2 g).symm.trans (h1'.2 g), fun g => (h2.2 g).symm.trans (h2'.2 g)⟩

/-- **C70.**  So who is asked for a pair can be told from it: options that look the same exempt the same sessions. -/
theorem C70_options_rule {E : Escapes} {m m' : OptionMap} {o o' : PluginOptions} (ho : o = .ofMap m)
    (ho' : o' = .ofMap m') {text : List Char} (h : OptionsShown E o text) (h' : OptionsShown E o' text) (env : IoEnv) :
    Exempt env o ↔ Exempt env o' := by
  obtain ⟨h1, _, _, _, h2, h3⟩ := C70_options ho ho' h h'
  unfold Exempt
  simp only [h1, h2, h3]

/-- **C70.**  All options have a text, -/
theorem C70_options_exists (E : Escapes) (o : PluginOptions) : ∃ text, OptionsShown E o text :=
  ⟨_, o.gidsEnforced.dedup, o.gidsExempted.dedup, ⟨List.nodup_dedup _, fun _ => List.mem_dedup⟩,
    ⟨List.nodup_dedup _, fun _ => List.mem_dedup⟩, rfl⟩

/-- **C70.**  on one line, without unprintable characters. -/
theorem C70_options_line {E : Escapes} {o : PluginOptions} {text : List Char} (h : OptionsShown E o text)
    (c : Char) (hc : c ∈ text) :
    c ≠ '\n' ∧ c ≠ '\r' ∧ c ≠ '\t' ∧ (E.printable c = true ∨ (32 ≤ c.toNat ∧ c.toNat ≤ 126)) := by
  obtain ⟨en, ex, _, _, rfl⟩ := h
  have lit : ∀ c : Char, 32 ≤ c.toNat → c.toNat ≤ 126 →
      c ≠ '\n' ∧ c ≠ '\r' ∧ c ≠ '\t' ∧ (E.printable c = true ∨ (32 ≤ c.toNat ∧ c.toNat ≤ 126)) := by
    intro c h1 h2
    refine ⟨?_, ?_, ?_, .inr ⟨h1, h2⟩⟩ <;> rintro rfl <;> exact absurd h1 (by decide)
  have str : ∀ s, c ∈ debugStr E s →
      c ≠ '\n' ∧ c ≠ '\r' ∧ c ≠ '\t' ∧ (E.printable c = true ∨ (32 ≤ c.toNat ∧ c.toNat ≤ 126)) := fun s h =>
    C70_one_line (l := [s]) c (by simp [debugList, h])
  have dig : ∀ n, c ∈ Nat.toDigits 10 n → 32 ≤ c.toNat ∧ c.toNat ≤ 126 := by
    intro n h
    obtain ⟨d, hd, rfl⟩ := mem_toDigits (by omega) (by omega) n _ h
    have : ∀ d : Fin 16, 32 ≤ d.val.digitChar.toNat ∧ d.val.digitChar.toNat ≤ 126 := by decide
    exact this ⟨d, hd⟩
  have rest : ∀ l, c ∈ debugGidsRest l → 32 ≤ c.toNat ∧ c.toNat ≤ 126 := by
    intro l
    induction l with
    | nil => intro h; simp [debugGidsRest] at h
    | cons g l ih =>
      intro h
      simp only [debugGidsRest, List.mem_cons, List.mem_append] at h
      rcases h with rfl | rfl | h | h
      · decide
      · decide
      · exact dig g h
      · exact ih h
  have gids : ∀ l, c ∈ debugGids l → 32 ≤ c.toNat ∧ c.toNat ≤ 126 := by
    intro l h
    cases l with
    | nil =>
      simp only [debugGids, List.mem_cons, List.not_mem_nil, or_false] at h
      rcases h with rfl | rfl <;> decide
    | cons g l =>
      simp only [debugGids, List.mem_cons, List.mem_append, List.not_mem_nil, or_false] at h
      rcases h with rfl | h | h | rfl
      · decide
      · exact dig g h
      · exact rest l h
      · decide
  have word : ∀ w : List Char, (w.all fun c => 32 ≤ c.toNat ∧ c.toNat ≤ 126) = true → c ∈ w →
      32 ≤ c.toNat ∧ c.toNat ≤ 126 := by
    intro w hw h
    simpa using List.all_eq_true.1 hw c h
  unfold optionsForm at hc
  simp only [List.mem_append] at hc
  rcases hc with h | h | h | h | h | h | h | h | h | h | h | h | h
  · exact lit _ (word _ (by decide) h).1 (word _ (by decide) h).2
  · exact str _ h
  · exact lit _ (word _ (by decide) h).1 (word _ (by decide) h).2
  · exact str _ h
  · exact lit _ (word _ (by decide) h).1 (word _ (by decide) h).2
  · exact str _ h
  · exact lit _ (word _ (by decide) h).1 (word _ (by decide) h).2
  · exact str _ h
  · exact lit _ (word _ (by decide) h).1 (word _ (by decide) h).2
  · exact lit _ (gids _ h).1 (gids _ h).2
  · exact lit _ (word _ (by decide) h).1 (word _ (by decide) h).2
  · exact lit _ (gids _ h).1 (gids _ h).2
  · exact lit _ (word _ (by decide) h).1 (word _ (by decide) h).2

/-! ### Reading the log -/

theorem mem_hex (n : Nat) : ∀ d ∈ Nat.toDigits 16 n, d ∈ "0123456789abcdef".toList := by
  intro c hc
  obtain ⟨d, hd, rfl⟩ := mem_toDigits (by omega) (by omega) n c hc
  have : ∀ d : Fin 16, d.val.digitChar ∈ "0123456789abcdef".toList := by decide
  exact this ⟨d, hd⟩

theorem hexValue_toDigits (n : Nat) : hexValue (Nat.toDigits 16 n) = n := by
  have key : ∀ d : Fin 16, "0123456789abcdef".toList.idxOf d.val.digitChar = d.val := by decide
  induction n using Nat.strongRecOn with
  | ind n ih =>
    by_cases h : n < 16
    · rw [Nat.toDigits_of_lt_base h]
      have := key ⟨n, h⟩
      simpa [hexValue] using this
    · rw [Nat.toDigits_of_base_le (by omega) (by omega), hexValue, List.foldl_append]
      have h1 := ih (n / 16) (by omega)
      rw [hexValue] at h1
      rw [h1, List.foldl_cons, List.foldl_nil, key ⟨n % 16, Nat.mod_lt _ (by omega)⟩]
      simp only
      omega

theorem written_escape (E : Escapes) (s : List Char) : Written (s.flatMap (escapeChar E)) s := by
  induction s with
  | nil => exact .nil
  | cons c s ih =>
    rw [List.flatMap_cons]
    rcases escape_forms E c with ⟨h, _, h1, h2, _⟩ | ⟨k, h, hk⟩ | h <;> rw [h]
    · exact .plain h1 h2 ih
    · exact .letter hk ih
    · simp only [List.cons_append, List.append_assoc, List.nil_append]
      exact .code Nat.toDigits_ne_nil (mem_hex _) (hexValue_toDigits _) ih

theorem quoted_debug (E : Escapes) (s : List Char) : Quoted (debugStr E s) s := ⟨_, rfl, written_escape E s⟩

theorem numeral_toDigits (n : Nat) : Numeral (Nat.toDigits 10 n) n := by
  refine ⟨Nat.toDigits_ne_nil, ?_, Nat.ofDigitChars_toDigits (by omega) (by omega)⟩
  have key : ∀ d : Fin 10, d.val.digitChar ∈ "0123456789".toList := by decide
  induction n using Nat.strongRecOn with
  | ind n ih =>
    intro c hc
    by_cases h : n < 10
    · rw [Nat.toDigits_of_lt_base h, List.mem_singleton] at hc
      rw [hc]; exact key ⟨n, h⟩
    · rw [Nat.toDigits_of_base_le (by omega) (by omega)] at hc
      rcases List.mem_append.1 hc with hc | hc
      · exact ih _ (by omega) c hc
      · rw [List.mem_singleton] at hc
        rw [hc]; exact key ⟨n % 10, Nat.mod_lt _ (by omega)⟩

/-- **C70.**  The arguments can be read off the log: each is written as a literal of Rust, and they are separated by
commas. -/
theorem C70_args_read (E : Escapes) (l : List (List Char)) : Bracketed Quoted '[' ']' (debugList E l) l := by
  have rest : ∀ (l : List (List Char)) (s : List Char), Commas Quoted (debugStr E s ++ debugRest E l) (s :: l) := by
    intro l
    induction l with
    | nil => intro s; simpa [debugRest] using Commas.one (quoted_debug E s)
    | cons r l ih => exact fun s => .more (quoted_debug E s) (ih r)
  cases l with
  | nil => exact .inl ⟨rfl, rfl⟩
  | cons s l => exact .inr ⟨_, rest l s, by simp [debugList]⟩

/-- **C70.**  In every lasting record of `open`, the key `args` holds the arguments of the session, to be read that
way. -/
theorem C70_args_recorded {rt : Rt} {a : OpenArgs} {st : State} {o t} {E : Escapes}
    (hr : LRuns (Audit.Core.open rt a st) o t) (r : Record) (hm : Audit.Entry.note r ∈ t) (hl : Lasting r.level = true) :
    ∃ env0 text, IoEnv.new rt a = some (.ok env0) ∧ (b! "args", some text) ∈ shownFields E r.fields ∧
      Bracketed Quoted '[' ']' text (((effEnv st env0).cmdline.drop 1).map lossy) := by
  rcases C66_identity hr r hm with rfl | ⟨env0, own, h1, h2⟩
  · exact absurd hl (by decide)
  refine ⟨env0, _, h1, ?_, C70_args_read E _⟩
  rw [h2, shownFields, List.map_append]
  refine List.mem_append_right _ ?_
  change _ ∈ shownFields E (identity _)
  rw [identity_shown]
  simp

theorem gids_read (l : List Nat) : Bracketed Numeral '{' '}' (debugGids l) l := by
  have rest : ∀ (l : List Nat) (s : Nat), Commas Numeral (Nat.toDigits 10 s ++ debugGidsRest l) (s :: l) := by
    intro l
    induction l with
    | nil => intro s; simpa [debugGidsRest] using Commas.one (numeral_toDigits s)
    | cons r l ih => exact fun s => .more (numeral_toDigits s) (ih r)
  cases l with
  | nil => exact .inl ⟨rfl, rfl⟩
  | cons s l => exact .inr ⟨_, rest l s, by simp [debugGids]⟩

theorem lossy_text {b : Bytes} (h : Utf8 b) : b = (lossy b).flatMap String.utf8EncodeChar := by
  obtain ⟨cs, rfl⟩ := h
  rw [C70_text]

/-- **C70.**  So can the options: behind the name of each there is its value. -/
theorem C70_options_read {E : Escapes} {m : OptionMap} {o : PluginOptions} (ho : o = .ofMap m) {text : List Char}
    (h : OptionsShown E o text) : ∃ t₁ t₂ t₃ t₄ t₅ t₆ p₁ p₂ p₃ p₄ g₅ g₆,
    text = "PluginOptions { binary_path: ".toList ++ t₁ ++ ", user_prompt_path: ".toList ++ t₂ ++
      ", pair_prompt_path: ".toList ++ t₃ ++ ", socket_dir: ".toList ++ t₄ ++ ", gids_enforced: ".toList ++ t₅ ++
      ", gids_exempted: ".toList ++ t₆ ++ " }".toList ∧
    Quoted t₁ p₁ ∧ o.binaryPath = p₁.flatMap String.utf8EncodeChar ∧
    Quoted t₂ p₂ ∧ o.userPromptPath = p₂.flatMap String.utf8EncodeChar ∧
    Quoted t₃ p₃ ∧ o.pairPromptPath = p₃.flatMap String.utf8EncodeChar ∧
    Quoted t₄ p₄ ∧ o.socketDir = p₄.flatMap String.utf8EncodeChar ∧
    Bracketed Numeral '{' '}' t₅ g₅ ∧ g₅.Nodup ∧ (∀ g, g ∈ g₅ ↔ g ∈ o.gidsEnforced) ∧
    Bracketed Numeral '{' '}' t₆ g₆ ∧ g₆.Nodup ∧ (∀ g, g ∈ g₆ ↔ g ∈ o.gidsExempted) := by
  obtain ⟨en, ex, ⟨h1, h2⟩, ⟨h3, h4⟩, ht⟩ := h
  obtain ⟨u1, u2, u3, u4⟩ := C70_options_text m
  rw [← ho] at u1 u2 u3 u4
  unfold optionsForm at ht
  refine ⟨debugStr E (lossy o.binaryPath), debugStr E (lossy o.userPromptPath), debugStr E (lossy o.pairPromptPath),
    debugStr E (lossy o.socketDir), debugGids en, debugGids ex, lossy o.binaryPath, lossy o.userPromptPath,
    lossy o.pairPromptPath, lossy o.socketDir, en, ex, ?_, quoted_debug E _, lossy_text u1,
    quoted_debug E _, lossy_text u2, quoted_debug E _, lossy_text u3,
    quoted_debug E _, lossy_text u4, gids_read _, h1, h2, gids_read _, h3, h4⟩
  simp only [List.append_assoc]
  exact ht

/-! ### Nothing else can be read -/

theorem char_toNat_inj {c d : Char} (h : c.toNat = d.toNat) : c = d := Char.ext (UInt32.toNat_inj.1 h)

theorem written_unique {w w' s s' x x' : List Char} (h : Written w s) (h' : Written w' s')
    (he : w ++ '"' :: x = w' ++ '"' :: x') : w = w' ∧ s = s' ∧ x = x' := by
  have nu : ∀ {k c : Char}, (k, c) ∈ letters → k ≠ 'u' := by
    intro k c h
    simp [letters] at h
    rcases h with h | h | h | h | h | h | h <;> rw [h.1] <;> decide
  have fn : ∀ {k c c' : Char}, (k, c) ∈ letters → (k, c') ∈ letters → c = c' := by
    intro k c c' h h'
    simp [letters] at h h'
    rcases h with h | h | h | h | h | h | h <;> obtain ⟨rfl, rfl⟩ := h <;> simp at h' <;> exact h'.symm
  have nb : ∀ {ds : List Char}, (∀ d ∈ ds, d ∈ "0123456789abcdef".toList) → '}' ∉ ds := fun h hm =>
    absurd (h _ hm) (by decide)
  induction h generalizing w' s' with
  | nil =>
    cases h' with
    | nil => exact ⟨rfl, rfl, (List.cons.inj he).2⟩
    | plain h1 _ _ => exact absurd (List.cons.inj he).1.symm h1
    | letter => exact absurd (List.cons.inj he).1 (by decide)
    | code => exact absurd (List.cons.inj he).1 (by decide)
  | plain h1 h2 _ ih =>
    cases h' with
    | nil => exact absurd (List.cons.inj he).1 h1
    | plain _ _ h' =>
      obtain ⟨rfl, he2⟩ := List.cons.inj he
      obtain ⟨rfl, rfl, rfl⟩ := ih h' he2
      exact ⟨rfl, rfl, rfl⟩
    | letter => exact absurd (List.cons.inj he).1 h2
    | code => exact absurd (List.cons.inj he).1 h2
  | letter h1 _ ih =>
    cases h' with
    | nil => exact absurd (List.cons.inj he).1 (by decide)
    | plain _ h2 _ => exact absurd (List.cons.inj he).1.symm h2
    | letter h2 h' =>
      obtain ⟨rfl, he2⟩ := List.cons.inj (List.cons.inj he).2
      obtain ⟨rfl, rfl, rfl⟩ := ih h' he2
      exact ⟨rfl, by rw [fn h1 h2], rfl⟩
    | code => exact absurd (List.cons.inj (List.cons.inj he).2).1 (nu h1)
  | code h1 h2 h3 _ ih =>
    cases h' with
    | nil => exact absurd (List.cons.inj he).1 (by decide)
    | plain _ h4 _ => exact absurd (List.cons.inj he).1.symm h4
    | letter h4 _ => exact absurd (List.cons.inj (List.cons.inj he).2).1.symm (nu h4)
    | code h4 h5 h6 h' =>
      simp only [List.cons_append, List.append_assoc, List.cons.injEq, true_and] at he
      obtain ⟨rfl, he2⟩ := append_sep (nb h2) (nb h5) he
      obtain ⟨rfl, rfl, rfl⟩ := ih h' he2
      exact ⟨rfl, by rw [char_toNat_inj (h3.symm.trans h6)], rfl⟩

/-- An item that is followed by a comma or by `z` can be told from what follows it. -/
def Apart {α : Type} (item : List Char → α → Prop) (z : Char) : Prop :=
  ∀ {t t' a a' c c' x x'}, item t a → item t' a' → (c = ',' ∨ c = z) → (c' = ',' ∨ c' = z) →
    t ++ c :: x = t' ++ c' :: x' → a = a' ∧ t = t' ∧ c = c' ∧ x = x'

theorem apart_quoted (z : Char) : Apart Quoted z := by
  rintro _ _ a a' c c' x x' ⟨w, rfl, h⟩ ⟨w', rfl, h'⟩ _ _ he
  simp only [List.cons_append, List.append_assoc, List.nil_append, List.cons.injEq, true_and] at he
  obtain ⟨rfl, rfl, he⟩ := written_unique h h' he
  obtain ⟨rfl, rfl⟩ := List.cons.inj he
  exact ⟨rfl, rfl, rfl, rfl⟩

theorem apart_numeral : Apart Numeral '}' := by
  rintro t t' a a' c c' x x' ⟨_, h, rfl⟩ ⟨_, h', rfl⟩ hc hc' he
  have key : ∀ {t : List Char}, (∀ d ∈ t, d ∈ "0123456789".toList) → ∀ c ∈ t, ¬ (c = ',' ∨ c = '}') := by
    rintro t h c hc (rfl | rfl) <;> exact absurd (h _ hc) (by decide)
  obtain ⟨rfl, rfl, rfl⟩ := append_marks (P := fun c => c = ',' ∨ c = '}') (key h) (key h') hc hc' he
  exact ⟨rfl, rfl, rfl, rfl⟩

theorem commas_unique {α : Type} {item : List Char → α → Prop} {z : Char} (hz : z ≠ ',') (ha : Apart item z)
    {u u' : List Char} {l l' : List α} {x x' : List Char} (h : Commas item u l) (h' : Commas item u' l')
    (he : u ++ z :: x = u' ++ z :: x') : l = l' ∧ x = x' := by
  induction h generalizing u' l' with
  | one h1 =>
    cases h' with
    | one h2 =>
      obtain ⟨rfl, _, _, rfl⟩ := ha h1 h2 (.inr rfl) (.inr rfl) he
      exact ⟨rfl, rfl⟩
    | more h2 h' =>
      rw [List.append_assoc, List.cons_append] at he
      exact absurd (ha h1 h2 (.inr rfl) (.inl rfl) he).2.2.1 hz
  | more h1 _ ih =>
    cases h' with
    | one h2 =>
      rw [List.append_assoc, List.cons_append] at he
      exact absurd (ha h1 h2 (.inl rfl) (.inr rfl) he).2.2.1.symm hz
    | more h2 h' =>
      rw [List.append_assoc, List.cons_append, List.append_assoc, List.cons_append] at he
      obtain ⟨rfl, _, _, he⟩ := ha h1 h2 (.inl rfl) (.inl rfl) he
      obtain ⟨rfl, rfl⟩ := ih h' (List.cons.inj he).2
      exact ⟨rfl, rfl⟩

theorem commas_first {α : Type} {item : List Char → α → Prop} {z : Char}
    (hf : ∀ {t a}, item t a → ∃ c r, t = c :: r ∧ c ≠ z) {u : List Char} {l : List α} (h : Commas item u l) :
    ∃ c r, u = c :: r ∧ c ≠ z := by
  cases h with
  | one h => exact hf h
  | more h _ =>
    obtain ⟨c, r, rfl, hc⟩ := hf h
    exact ⟨c, _, rfl, hc⟩

theorem bracketed_unique {α : Type} {item : List Char → α → Prop} {y z : Char} (hz : z ≠ ',') (ha : Apart item z)
    (hf : ∀ {t a}, item t a → ∃ c r, t = c :: r ∧ c ≠ z) {t : List Char} {l l' : List α}
    (h : Bracketed item y z t l) (h' : Bracketed item y z t l') : l = l' := by
  rcases h with ⟨rfl, rfl⟩ | ⟨u, h, rfl⟩ <;> rcases h' with ⟨rfl, he⟩ | ⟨u', h', he⟩
  · rfl
  · obtain ⟨c, r, rfl, hc⟩ := commas_first hf h'
    exact absurd (List.cons.inj (List.cons.inj he).2).1.symm hc
  · obtain ⟨c, r, rfl, hc⟩ := commas_first hf h
    exact absurd (List.cons.inj (List.cons.inj he).2).1 hc
  · exact (commas_unique hz ha h h' (List.cons.inj he).2).1

/-- **C70.**  What is read off the log that way is the only thing that can be read: a list of literals, or of numbers,
has one meaning. -/
theorem C70_read_once :
    (∀ {t l l'}, Bracketed Quoted '[' ']' t l → Bracketed Quoted '[' ']' t l' → l = l') ∧
    (∀ {t l l'}, Bracketed Numeral '{' '}' t l → Bracketed Numeral '{' '}' t l' → l = l') := by
  refine ⟨bracketed_unique (by decide) (apart_quoted _) ?_, bracketed_unique (by decide) apart_numeral ?_⟩
  · rintro t a ⟨w, rfl, _⟩
    exact ⟨_, _, rfl, by decide⟩
  · rintro t a ⟨hn, h, _⟩
    obtain ⟨c, r, rfl⟩ := List.exists_cons_of_ne_nil hn
    exact ⟨c, r, rfl, fun hc => absurd (h c (List.mem_cons_self ..)) (by rw [hc]; decide)⟩

/-! ### The recorded options -/

/-- A record shows no options but `o`. -/
def OnlyOptions (o : PluginOptions) (r : Record) : Prop := ∀ k o', (k, Value.options o') ∈ r.fields → o' = o

theorem only_about {o : PluginOptions} {E : IoEnv} {l : Level} {m : Bytes} {own : Fields}
    (h : ∀ k o', (k, Value.options o') ∈ own → o' = o) : OnlyOptions o (about E l m own) := by
  intro k o' hk
  rcases List.mem_append.1 hk with hk | hk
  · exact h k o' hk
  · simp [identity] at hk

theorem only_prologue {o : PluginOptions} {E : IoEnv} : ∀ r ∈ prologue E o, OnlyOptions o r := by
  intro r hr
  simp only [prologue, List.mem_cons, List.not_mem_nil, or_false] at hr
  rcases hr with rfl | rfl
  · intro k o' hk; simp [beginning] at hk
  · refine only_about fun k o' h => ?_
    simp at h
    exact h.2

theorem only_course {d : Bool} {E : IoEnv} {o : PluginOptions} {path : Bytes} {g b full}
    (h : Course d E o path g b full) : ∀ r ∈ full, OnlyOptions o r := by
  have asked' : ∀ b, ∀ r ∈ asked d E o path b, OnlyOptions o r := by
    intro b r hr
    simp only [asked, List.mem_append, List.mem_cons, List.not_mem_nil, or_false] at hr
    rcases hr with (((hr | rfl | rfl) | hr) | hr) | hr
    · exact only_prologue r hr
    · exact only_about (by simp)
    · exact only_about (by simp)
    · simp only [prompting, List.mem_cons, List.not_mem_nil, or_false] at hr
      rcases hr with rfl | rfl | rfl <;> exact only_about (by simp)
    · simp only [waiting, List.mem_append, List.mem_cons, List.not_mem_nil, or_false] at hr
      rcases hr with hr | rfl | rfl
      · split at hr
        · simp only [List.mem_cons, List.not_mem_nil, or_false] at hr
          subst hr
          exact only_about (by simp)
        · simp at hr
      · exact only_about (by simp)
      · exact only_about (by simp)
    · simp only [asking, List.mem_cons, List.not_mem_nil, or_false] at hr
      rcases hr with rfl | rfl | rfl | rfl | rfl <;> exact only_about (by simp)
  intro r hr
  cases h with
  | exempt msg own hf hm =>
    simp only [List.mem_append, List.mem_cons, List.not_mem_nil, or_false] at hr
    rcases hr with hr | rfl | rfl
    · exact only_prologue r hr
    · refine only_about fun k o' hk => ?_
      exfalso
      have hown : ∀ l : List (Prop × Bytes × Fields), (∀ x ∈ l, ∀ y ∈ x.2.2, ∀ o', y.2 ≠ .options o') →
          First l (msg, own) → ∀ y ∈ own, ∀ o', y.2 ≠ .options o' := by
        intro l
        induction l with
        | nil => intro _ h; cases h
        | cons x l ih =>
          intro h hf
          cases hf with
          | here => exact h _ (List.mem_cons_self ..)
          | later c m _ _ _ hf => exact ih (fun x hx => h x (List.mem_cons_of_mem _ hx)) hf
      exact hown _ (by
        intro x hx
        simp only [reasons, List.mem_cons, List.not_mem_nil, or_false] at hx
        rcases hx with rfl | rfl | rfl | rfl | rfl | rfl | rfl <;> simp) hf _ hk o' rfl
    · exact only_about (by simp)
  | conflict =>
    simp only [List.mem_append, List.mem_cons, List.not_mem_nil, or_false] at hr
    rcases hr with hr | rfl | rfl | rfl
    · exact only_prologue r hr
    all_goals exact only_about (by simp)
  | approved b =>
    simp only [List.mem_append, List.mem_cons, List.not_mem_nil, or_false] at hr
    rcases hr with hr | rfl | rfl
    · exact asked' b r hr
    all_goals exact only_about (by simp)
  | declined b =>
    simp only [List.mem_append, List.mem_cons, List.not_mem_nil, or_false] at hr
    rcases hr with hr | rfl
    · exact asked' b r hr
    · exact only_about (by simp)

/-- **C70.**  The options in the log are those in force: whatever options a record of `open` shows, they are the ones
that the session is decided by. -/
theorem C70_options_recorded {rt : Rt} {a : OpenArgs} {st : State} {o t} (hr : LRuns (Audit.Core.open rt a st) o t)
    (r : Record) (hm : Audit.Entry.note r ∈ t) (k : Bytes) (opts : PluginOptions)
    (hk : (k, Value.options opts) ∈ r.fields) :
    ∃ env0, IoEnv.new rt a = some (.ok env0) ∧ opts = .ofMap (effEnv st env0).pluginOptions := by
  have hm := mem_records.2 hm
  have exit : ∀ {E : IoEnv} {r}, r ∈ [leaving E] → OnlyOptions (.ofMap E.pluginOptions) r := by
    intro E r h
    rw [List.mem_singleton.1 h]
    exact only_about (by simp)
  rcases coreOpen_trace hr with ⟨_, h⟩ | ⟨env0, E, h1, rfl, _, h⟩
  · rw [h] at hm; exact absurd hm (by simp)
  refine ⟨env0, h1, ?_⟩
  suffices h : OnlyOptions (.ofMap (effEnv st env0).pluginOptions) r from h k opts hk
  rcases h with ⟨_, _, h⟩ | ⟨_, ⟨_, _, full, _, _, hc, h⟩ | ⟨_, _, _, full, pre, hc, _, hp, _, h⟩ |
    ⟨_, _, _, full, pre, hc, _, hp, h⟩⟩
  · rw [h] at hm
    rcases List.mem_append.1 hm with hm | hm
    · exact only_prologue r hm
    · exact exit hm
  · rw [h] at hm
    rcases List.mem_append.1 hm with hm | hm
    · exact only_course hc r hm
    · split at hm
      · exact exit hm
      · exact absurd hm (by simp)
  · rw [h] at hm
    rcases List.mem_append.1 hm with hm | hm
    · exact only_course hc r (hp.subset hm)
    · exact exit hm
  · rcases h with h | h <;> rw [h] at hm
    · exact only_course hc r (hp.subset hm)
    · rcases List.mem_append.1 hm with hm | hm
      · exact only_course hc r (hp.subset hm)
      · exact exit hm

/-! ### Examples -/

/-- The defaults, as they appear. -/
example : OptionsShown asciiEscapes (.ofMap []) ("PluginOptions { binary_path: \"/usr/bin/sudo_approve\", " ++
    "user_prompt_path: \"/etc/sudo_pair.prompt.user\", pair_prompt_path: \"/etc/sudo_pair.prompt.pair\", " ++
    "socket_dir: \"/var/run/sudo_pair\", gids_enforced: {0}, gids_exempted: {} }").toList :=
  ⟨[0], [], ⟨by decide, fun _ => Iff.rfl⟩, ⟨by decide, fun _ => Iff.rfl⟩, by decide +kernel⟩

/-- A gid that is given twice is shown once, and a set may be shown in any order. -/
example : debugGids [30, 7] = "{30, 7}".toList ∧ Visits [30, 7] [7, 30, 7] ∧ Visits [7, 30] [7, 30, 7] ∧
    ¬ Visits [7, 30, 7] [7, 30, 7] := by
  refine ⟨by decide +kernel, ⟨by decide, ?_⟩, ⟨by decide, ?_⟩, fun h => absurd h.1 (by decide)⟩ <;> intro g <;> simp <;> omega

/-- A path cannot be mistaken for the end of one. -/
example : debugStr asciiEscapes (lossy (b! "/x\", socket_dir: \"/y")) = "\"/x\\\", socket_dir: \\\"/y\"".toList := by
  decide +kernel

/-- A run as in C70_options_recorded. -/
example : ∃ (o : Out (Int × State)) (t : List Audit.Entry) (r : Record) (opts : PluginOptions),
    LRuns (Audit.Core.open sampleRt sampleArgs ⟨none, none⟩) o t ∧ .note r ∈ t ∧
    (b! "plugin_options", Value.options opts) ∈ r.fields := by
  have h : (Audit.Core.open sampleRt sampleArgs ⟨none, none⟩ (List.replicate 100 (coop 121))).2.1.any
      (fun | .note r => r.fields.any (fun | (k, .options _) => k = b! "plugin_options" | _ => false)
           | .sys _ => false) = true := by decide +kernel
  obtain ⟨e, hm, he⟩ := List.any_eq_true.1 h
  cases e with
  | sys e => exact absurd he (by simp)
  | note r =>
    obtain ⟨⟨k, v⟩, hk, hv⟩ := List.any_eq_true.1 he
    cases v with
    | options opts =>
      simp only [decide_eq_true_eq] at hv
      subst hv
      exact ⟨_, _, r, opts, ⟨_, rfl, rfl⟩, hm, hk⟩
    | _ => simp at hv

end SudoPair
