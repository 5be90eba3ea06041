import Verif.Spec.Path
import Verif.Model.Path
import Verif.Lemmas.Text
/-
Path components.
-/
namespace SudoPair.Path
open Spec

/-- What `components` puts in front. -/
def pre (p : Bytes) : List Comp :=
  if hasRoot p then [.root] else if includeCur p then [.cur] else []

/-- The components proper. -/
def body (p : Bytes) : List Comp := (splitOn 47 p).filterMap single

theorem splitOn_slash (p : Bytes) : splitOn 47 (47 :: p) = [] :: splitOn 47 p := by
  rw [splitOn]; simp

theorem splitOn_dot (q : Bytes) : splitOn 47 (46 :: 47 :: q) = [46] :: splitOn 47 q := by
  have := splitOn_append_sep 47 [46] q
  have hd : splitOn 47 ([46] : Bytes) = [[46]] := by decide
  rw [hd] at this
  exact this

theorem hasRoot_cons (c : UInt8) (p : Bytes) : hasRoot (c :: p) = decide (c = 47) := by
  simp [hasRoot]

theorem includeCur_iff (p : Bytes) : includeCur p = true ↔ p = [46] ∨ ∃ q, p = 46 :: 47 :: q := by
  unfold includeCur
  rw [Bool.or_eq_true]
  constructor
  · rintro (h | h)
    · left; simpa using h
    · right
      obtain ⟨q, hq⟩ := List.isPrefixOf_iff_prefix.1 h
      exact ⟨q, by rw [← hq]; rfl⟩
  · rintro (rfl | ⟨q, rfl⟩)
    · left; rfl
    · right; exact List.isPrefixOf_iff_prefix.2 ⟨q, rfl⟩

theorem components_eq (p : Bytes) : components p = pre p ++ body p := by
  unfold components pre body headLen
  congr 1
  by_cases h1 : hasRoot p = true
  · cases p with
    | nil => simp [hasRoot] at h1
    | cons c p =>
      simp only [hasRoot_cons, decide_eq_true_eq] at h1
      subst h1
      rw [splitOn_slash]
      simp [hasRoot, single]
  · by_cases h2 : includeCur p = true
    · rcases (includeCur_iff p).1 h2 with rfl | ⟨q, rfl⟩
      · decide
      · rw [splitOn_dot]
        simp [h2, splitOn_slash, single]
    · simp [h1, h2]

theorem body_append (a b : Bytes) : body (a ++ 47 :: b) = body a ++ body b := by
  simp [body, splitOn_append_sep]

theorem body_nil : body [] = [] := by decide
theorem body_dot : body [46] = [] := by decide

theorem pre_append (a b : Bytes) : pre (a ++ 47 :: b) = if a = [] then [.root] else pre a := by
  cases a with
  | nil => simp [pre, hasRoot]
  | cons c a =>
    simp only [List.cons_append, reduceCtorEq, if_false, pre, hasRoot_cons]
    have : includeCur (c :: (a ++ 47 :: b)) = includeCur (c :: a) := by
      rw [Bool.eq_iff_iff, includeCur_iff, includeCur_iff]
      cases a with
      | nil => simp
      | cons d a => simp
    simp only [this]

theorem components_append (a b : Bytes) :
    components (a ++ 47 :: b) = (if a = [] then [.root] else components a) ++ body b := by
  rw [components_eq, components_eq, pre_append, body_append]
  split
  · rename_i h; subst h; simp [body_nil]
  · simp

theorem components_same {p q : Bytes} (h : SamePath p q) : components p = components q := by
  induction h with
  | slashes a b =>
    have h1 : a ++ b! "//" ++ b = a ++ 47 :: ([] ++ 47 :: b) := by simp
    have h2 : a ++ b! "/" ++ b = a ++ 47 :: b := by simp
    rw [h1, h2, components_append, components_append, body_append, body_nil]; simp
  | dot a b =>
    have h1 : a ++ b! "/./" ++ b = a ++ 47 :: ([46] ++ 47 :: b) := by simp
    have h2 : a ++ b! "/" ++ b = a ++ 47 :: b := by simp
    rw [h1, h2, components_append, components_append, body_append, body_dot]; simp
  | dotEnd a => rw [components_append, components_append, body_nil, body_dot]
  | slashEnd a ha => rw [components_append, body_nil, if_neg ha]; simp
  | refl => rfl
  | symm _ ih => exact ih.symm
  | trans _ _ ih1 ih2 => exact ih1.trans ih2

/-- How a component is spelled. -/
def name : Comp → Bytes
  | .root     => []
  | .cur      => [46]
  | .parent   => [46, 46]
  | .normal n => n

/-- The shortest spelling of a list of components. -/
def spell : List Comp → Bytes
  | []            => []
  | [.root]       => [47]
  | c :: cs       => name c ++ cs.flatMap (fun c => 47 :: name c)

theorem spell_root (c : Comp) (cs : List Comp) :
    spell (.root :: c :: cs) = 47 :: (name c ++ cs.flatMap (fun c => 47 :: name c)) := rfl

theorem single_name {s : Bytes} {c : Comp} (h : single s = some c) : name c = s := by
  unfold single at h
  split at h
  · simp at h
  · split at h
    · rename_i h2; cases h; exact h2.symm
    · cases h; rfl

theorem single_none {s : Bytes} (h : single s = none) : s = [] ∨ s = [46] := by
  unfold single at h
  split at h
  · assumption
  · split at h <;> simp at h

theorem single_some_ne {s : Bytes} {c : Comp} (h : single s = some c) : c ≠ .root ∧ c ≠ .cur := by
  unfold single at h
  split at h
  · simp at h
  · split at h <;> cases h <;> simp

/-- Insignificant segments can be dropped. -/
theorem same_segs (h : Bytes) (hne : h ≠ []) (segs : List Bytes) :
    SamePath (h ++ segs.flatMap (fun p => 47 :: p))
      (h ++ (segs.filterMap single).flatMap (fun c => 47 :: name c)) := by
  induction segs generalizing h with
  | nil => exact .refl _
  | cons s rest ih =>
    simp only [List.flatMap_cons, List.filterMap_cons]
    cases hs : single s with
    | some c =>
      have := ih (h ++ 47 :: s) (by simp)
      simpa [single_name hs] using this
    | none =>
      refine .trans ?_ (ih h hne)
      cases rest with
      | nil =>
        rcases single_none hs with rfl | rfl
        · simpa using SamePath.slashEnd h hne
        · have h1 := SamePath.dotEnd h
          have h2 := SamePath.slashEnd h hne
          simpa using h1.trans h2
      | cons r rest =>
        rcases single_none hs with rfl | rfl
        · simpa using SamePath.slashes h (r ++ rest.flatMap (fun p => 47 :: p))
        · simpa using SamePath.dot h (r ++ rest.flatMap (fun p => 47 :: p))

theorem same_root (s : Bytes) (rest : List Bytes) :
    SamePath ((s :: rest).flatMap (fun p => 47 :: p))
      (spell (.root :: (s :: rest).filterMap single)) := by
  induction rest generalizing s with
  | nil =>
    simp only [List.flatMap_cons, List.flatMap_nil, List.append_nil, List.filterMap_cons,
      List.filterMap_nil]
    cases hs : single s with
    | some c =>
      simp only [spell_root, single_name hs, List.flatMap_nil, List.append_nil]
      exact .refl _
    | none =>
      rcases single_none hs with rfl | rfl
      · exact .refl _
      · exact SamePath.dotEnd []
  | cons r rest ih =>
    cases hs : single s with
    | some c =>
      have := same_segs (47 :: s) (by simp) (r :: rest)
      rw [List.filterMap_cons, hs]
      simp only [spell_root, single_name hs]
      exact this
    | none =>
      have ih := ih r
      rw [List.filterMap_cons, hs]
      refine .trans ?_ ih
      rcases single_none hs with rfl | rfl
      · simpa using SamePath.slashes [] (r ++ rest.flatMap (fun p => 47 :: p))
      · simpa using SamePath.dot [] (r ++ rest.flatMap (fun p => 47 :: p))

/-- Every path is a spelling of its components. -/
theorem same_spell (p : Bytes) : SamePath p (spell (components p)) := by
  cases hs : splitOn 47 p with
  | nil => exact absurd hs (splitOn_ne_nil _ _)
  | cons h segs =>
    obtain ⟨hp, hno⟩ := splitOn_eq_cons.1 hs
    rw [components_eq, body, hs]
    cases h with
    | nil =>
      cases segs with
      | nil => simp at hp; subst hp; exact .refl _
      | cons s rest =>
        have : hasRoot p = true := by rw [hp]; simp [hasRoot]
        rw [pre, if_pos this]
        rw [hp]
        simpa [single] using same_root s rest
    | cons c h =>
      have hc : c ≠ 47 := by
        intro hc; subst hc; exact hno (47 :: h) (by simp) (by simp)
      have hroot : hasRoot p = false := by rw [hp]; simp [hasRoot, hc]
      have h2 := same_segs (c :: h) (by simp) segs
      rw [← hp] at h2
      cases hsing : single (c :: h) with
      | some k =>
        have hcur : includeCur p = false := by
          rw [Bool.eq_false_iff]
          intro hcur
          rcases (includeCur_iff p).1 hcur with h3 | ⟨q, h3⟩
          · rw [h3] at hs
            have : splitOn 47 ([46] : Bytes) = [[46]] := by decide
            rw [this] at hs
            simp only [List.cons.injEq] at hs
            obtain ⟨⟨rfl, rfl⟩, _⟩ := hs
            simp [single] at hsing
          · rw [h3] at hs
            rw [splitOn_dot] at hs
            simp only [List.cons.injEq] at hs
            obtain ⟨⟨rfl, rfl⟩, _⟩ := hs
            simp [single] at hsing
        rw [pre, hroot, hcur]
        simp only [List.filterMap_cons, hsing]
        have hk := single_some_ne hsing
        have : spell (k :: segs.filterMap single) =
            name k ++ (segs.filterMap single).flatMap (fun c => 47 :: name c) := by
          cases k with
          | root => exact absurd rfl hk.1
          | cur => exact absurd rfl hk.2
          | parent => rfl
          | normal n => rfl
        simp only [if_false, List.nil_append, Bool.false_eq_true]
        rw [this, single_name hsing]
        exact h2
      | none =>
        rcases single_none hsing with h3 | h3
        · simp at h3
        · have hcur : includeCur p = true := by
            rw [includeCur_iff, hp, h3]
            cases segs with
            | nil => left; rfl
            | cons s segs => right; exact ⟨_, rfl⟩
          rw [pre, hroot, hcur]
          simp only [List.filterMap_cons, hsing, if_false, if_true, Bool.false_eq_true,
            List.singleton_append]
          rw [h3] at h2
          exact h2

/-! ### `join` -/

theorem name_body {n : Bytes} (h47 : (47 : UInt8) ∉ n) (h0 : n ≠ []) (h1 : n ≠ [46]) (h2 : n ≠ [46, 46]) :
    body n = [.normal n] := by
  simp [body, splitOn_no_sep h47, single, h0, h1, h2]

theorem components_snoc_slash (p : Bytes) (hp : p.getLast? = some 47) :
    ∃ a, p = a ++ [47] ∧ components p = if a = [] then [.root] else components a := by
  obtain ⟨a, rfl⟩ := List.getLast?_eq_some_iff.1 hp
  refine ⟨a, rfl, ?_⟩
  rw [components_append, body_nil, List.append_nil]

/-- Joining a plain file name appends one component. -/
theorem components_join (d n : Bytes) (h47 : (47 : UInt8) ∉ n) (h0 : n ≠ []) (h1 : n.head? ≠ some 46) :
    components (join d n) = components d ++ [.normal n] := by
  have hn1 : n ≠ [46] := by rintro rfl; simp at h1
  have hn2 : n ≠ [46, 46] := by rintro rfl; simp at h1
  have hb := name_body h47 h0 hn1 hn2
  have hroot : hasRoot n = false := by
    cases n with
    | nil => exact absurd rfl h0
    | cons c n =>
      have : c ≠ 47 := by rintro rfl; simp at h47
      simp [hasRoot_cons, this]
  have hcur : includeCur n = false := by
    rw [Bool.eq_false_iff]
    intro hcur
    rcases (includeCur_iff n).1 hcur with h | ⟨q, h⟩ <;> rw [h] at h1 <;> simp at h1
  unfold join
  rw [hroot]
  simp only [Bool.false_eq_true, if_false]
  by_cases hd : d = []
  · subst hd
    simp only [if_true]
    rw [components_eq n, pre, hroot, hcur, hb]
    rfl
  · rw [if_neg hd]
    by_cases hl : d.getLast? = some 47
    · rw [if_pos hl]
      obtain ⟨a, rfl, hc⟩ := components_snoc_slash d hl
      rw [hc, List.append_assoc]
      simp only [List.singleton_append]
      rw [components_append, hb]
    · rw [if_neg hl, components_append, if_neg hd, hb]

/-! ### `parent` -/

theorem joinWith_cons (sep : UInt8) (p : Bytes) (ps : List Bytes) :
    joinWith sep (p :: ps) = p ++ ps.flatMap (fun q => sep :: q) := by
  induction ps generalizing p with
  | nil => simp [joinWith]
  | cons q ps ih => rw [joinWith, ih]; simp

theorem joinWith_splitOn (sep : UInt8) (p : Bytes) : joinWith sep (splitOn sep p) = p := by
  cases hs : splitOn sep p with
  | nil => exact absurd hs (splitOn_ne_nil _ _)
  | cons f r => rw [joinWith_cons]; exact (splitOn_eq_cons.1 hs).1.symm

theorem splitOn_joinWith (sep : UInt8) {l : List Bytes} (hne : l ≠ []) (h : ∀ p ∈ l, sep ∉ p) :
    splitOn sep (joinWith sep l) = l := by
  cases l with
  | nil => exact absurd rfl hne
  | cons f r => rw [joinWith_cons]; exact splitOn_eq_cons.2 ⟨rfl, h⟩

theorem splitOn_mem {sep : UInt8} {p : Bytes} : ∀ s ∈ splitOn sep p, sep ∉ s := by
  cases hs : splitOn sep p with
  | nil => exact absurd hs (splitOn_ne_nil _ _)
  | cons f r => exact (splitOn_eq_cons.1 hs).2

theorem trimTrailing_prefix (segs : List Bytes) :
    ∃ t, segs = trimTrailing segs ++ t ∧ ∀ s ∈ t, single s = none := by
  unfold trimTrailing
  refine ⟨(segs.reverse.takeWhile (fun s => (single s).isNone)).reverse, ?_, ?_⟩
  · rw [← List.reverse_append, List.takeWhile_append_dropWhile, List.reverse_reverse]
  · intro s hs
    have := List.all_takeWhile (p := fun s => (single s).isNone) (l := segs.reverse)
    rw [List.all_eq_true] at this
    simpa using this s (by simpa using hs)

theorem trimTrailing_body (segs : List Bytes) :
    (trimTrailing segs).filterMap single = segs.filterMap single := by
  obtain ⟨t, h1, h2⟩ := trimTrailing_prefix segs
  have : t.filterMap single = [] := List.filterMap_eq_nil_iff.2 h2
  conv => rhs; rw [h1, List.filterMap_append, this, List.append_nil]

theorem trimTrailing_last (segs : List Bytes) (h : trimTrailing segs ≠ []) :
    ∃ init l c, trimTrailing segs = init ++ [l] ∧ single l = some c := by
  unfold trimTrailing at h ⊢
  cases hd : segs.reverse.dropWhile (fun s => (single s).isNone) with
  | nil => rw [hd] at h; simp at h
  | cons l init =>
    have h3 := List.head_dropWhile_not (p := fun s => (single s).isNone) (l := segs.reverse) (by rw [hd]; simp)
    simp only [hd, List.head_cons] at h3
    cases hl : single l with
    | none => rw [hl] at h3; simp at h3
    | some c => exact ⟨init.reverse, l, c, by simp, hl⟩

theorem joinWith_prefix (sep : UInt8) (a b : List Bytes) : joinWith sep a <+: joinWith sep (a ++ b) := by
  cases a with
  | nil => simp [joinWith]
  | cons f r =>
    rw [List.cons_append, joinWith_cons, joinWith_cons, List.flatMap_append, ← List.append_assoc]
    exact List.prefix_append _ _

theorem body_joinWith {l : List Bytes} (h : ∀ s ∈ l, (47 : UInt8) ∉ s) :
    body (joinWith 47 l) = l.filterMap single := by
  cases l with
  | nil => exact body_nil
  | cons f r => rw [body, splitOn_joinWith 47 (by simp) h]

/-- `parent` removes exactly the last component; the result is a prefix of the path. -/
theorem parent_some {p q : Bytes} (h : parent p = some q) :
    q <+: p ∧ ∃ c, components p = components q ++ [c] := by
  unfold parent at h
  simp only at h
  generalize hsegs : splitOn 47 (p.drop (headLen p)) = segs at h
  have hjoin : joinWith 47 segs = p.drop (headLen p) := by rw [← hsegs]; exact joinWith_splitOn ..
  have hmem : ∀ s ∈ segs, (47 : UInt8) ∉ s := by rw [← hsegs]; exact splitOn_mem
  have hcomp : components p = pre p ++ segs.filterMap single := by
    unfold components pre; rw [hsegs]
  split at h
  · rename_i hnil
    split at h
    · simp at h
    · split at h
      · rename_i hroot hcur
        simp only [Option.some.injEq] at h
        subst h
        refine ⟨List.nil_prefix, .cur, ?_⟩
        have : segs.filterMap single = [] := by rw [← trimTrailing_body, hnil]; rfl
        rw [hcomp, this, pre, if_neg hroot, if_pos hcur]
        decide
      · simp at h
  · rename_i hne
    simp only [Option.some.injEq] at h
    obtain ⟨init, l, c, hinit, hl⟩ := trimTrailing_last segs hne
    rw [hinit, List.dropLast_concat] at h
    obtain ⟨t, ht, _⟩ := trimTrailing_prefix segs
    obtain ⟨t', ht', _⟩ := trimTrailing_prefix init
    have hpre : joinWith 47 (trimTrailing init) <+: p.drop (headLen p) := by
      rw [← hjoin, ht, hinit]
      conv => rhs; rw [ht']
      rw [List.append_assoc, List.append_assoc]
      exact joinWith_prefix ..
    have hq : q <+: p := by
      rw [← h]
      conv => rhs; rw [← List.take_append_drop (headLen p) p]
      exact (List.prefix_append_right_inj _).2 hpre
    refine ⟨hq, c, ?_⟩
    have hmem' : ∀ s ∈ trimTrailing init, (47 : UInt8) ∉ s := by
      intro s hs
      apply hmem s
      rw [ht, hinit, ht']
      simp [hs]
    have hbody : segs.filterMap single = (trimTrailing init).filterMap single ++ [c] := by
      rw [← trimTrailing_body segs, hinit, List.filterMap_append, trimTrailing_body]
      simp [hl]
    -- the head part is the same
    have hx : ∃ x, p = q ++ x := by obtain ⟨x, hx⟩ := hq; exact ⟨x, hx.symm⟩
    rw [hcomp, hbody, ← List.append_assoc]
    congr 1
    rw [components_eq q]
    by_cases hroot : hasRoot p = true
    · have hh : headLen p = 1 := by simp [headLen, hroot]
      cases p with
      | nil => simp [hasRoot] at hroot
      | cons b p =>
        simp only [hasRoot_cons, decide_eq_true_eq] at hroot
        subst hroot
        rw [hh] at h
        simp only [List.take_succ_cons, List.take_zero, List.singleton_append] at h
        rw [← h]
        have : body (47 :: joinWith 47 (trimTrailing init)) = (trimTrailing init).filterMap single := by
          have := body_append [] (joinWith 47 (trimTrailing init))
          rw [List.nil_append] at this
          rw [this, body_nil, body_joinWith hmem', List.nil_append]
        rw [this]
        simp [pre, hasRoot]
    · by_cases hcur : includeCur p = true
      · have hh : headLen p = 1 := by simp [headLen, hcur]
        rcases (includeCur_iff p).1 hcur with rfl | ⟨r, rfl⟩
        · exfalso
          rw [hh] at hsegs
          have h1 : splitOn 47 (List.drop 1 ([46] : Bytes)) = [[]] := by decide
          rw [h1] at hsegs
          subst hsegs
          exact hne (by decide)
        · rw [hh] at h hsegs
          have h1 : splitOn 47 (List.drop 1 (46 :: 47 :: r)) = [] :: splitOn 47 r := splitOn_slash r
          rw [h1] at hsegs
          simp only [List.take_succ_cons, List.take_zero, List.singleton_append] at h
          rw [← h]
          cases hti : trimTrailing init with
          | nil =>
            have : body (46 :: joinWith 47 []) = [] := body_dot
            rw [this]
            simp [pre, hasRoot, includeCur, joinWith]
          | cons f rest =>
            have hf : f = [] := by
              have : segs = f :: (rest ++ t' ++ [l] ++ t) := by
                rw [ht, hinit, ht', hti]; simp
              rw [← hsegs] at this
              simp only [List.cons.injEq] at this
              exact this.1.symm
            subst hf
            cases rest with
            | nil =>
              -- `trimTrailing` never ends in an insignificant segment
              exfalso
              obtain ⟨i, l', c', h5, h6⟩ := trimTrailing_last init (by rw [hti]; simp)
              rw [hti] at h5
              cases i with
              | nil =>
                simp at h5; subst h5; simp [single] at h6
              | cons a i => simp at h5
            | cons g rest =>
              rw [joinWith_cons]
              simp only [List.nil_append, List.flatMap_cons, List.cons_append]
              have h7 : (46 : UInt8) :: 47 :: (g ++ rest.flatMap (fun q => 47 :: q)) =
                  [46] ++ 47 :: (g ++ rest.flatMap (fun q => 47 :: q)) := rfl
              rw [h7, body_append, body_dot, List.nil_append, ← joinWith_cons, body_joinWith]
              · have : pre ([46] ++ 47 :: joinWith 47 (g :: rest)) = [.cur] := by
                  rw [pre_append]; decide
                rw [this]
                simp [pre, hcur, hasRoot, single]
              · intro s hs
                apply hmem' s
                rw [hti]; simp [hs]
      · have hh : headLen p = 0 := by simp [headLen, hroot, hcur]
        rw [hh] at h
        simp only [List.take_zero, List.nil_append] at h
        have hb : body q = (trimTrailing init).filterMap single := by rw [← h]; exact body_joinWith hmem'
        rw [hb]
        congr 1
        obtain ⟨x, hx⟩ := hx
        have hnr : hasRoot q = false := by
          cases q with
          | nil => rfl
          | cons b q =>
            rw [hx] at hroot
            simpa [hasRoot] using hroot
        have hnc : includeCur q = false := by
          rw [Bool.eq_false_iff]
          intro hc
          rcases (includeCur_iff q).1 hc with h8 | ⟨r, h8⟩
          · -- q = "."; then p = "./..." or p = "."
            have hti : trimTrailing init = [[46]] := by
              have h9 : joinWith 47 (trimTrailing init) = [46] := by rw [h, h8]
              have h10 : trimTrailing init ≠ [] := by
                intro h11; rw [h11] at h9; simp [joinWith] at h9
              have := splitOn_joinWith 47 h10 hmem'
              rw [h9] at this
              rw [← this]; decide
            obtain ⟨i, l', c', h5, h6⟩ := trimTrailing_last init (by rw [hti]; simp)
            rw [hti] at h5
            cases i with
            | nil => simp at h5; subst h5; simp [single] at h6
            | cons a i => simp at h5
          · apply hcur
            rw [includeCur_iff, hx, h8]
            right; exact ⟨_, rfl⟩
        simp [pre, hroot, hcur, hnr, hnc]

theorem parent_none {p : Bytes} (h : parent p = none) : components p = [] ∨ components p = [.root] := by
  unfold parent at h
  simp only at h
  split at h
  · rename_i hnil
    have hb : (splitOn 47 (p.drop (headLen p))).filterMap single = [] := by
      rw [← trimTrailing_body, hnil]; rfl
    unfold components
    rw [hb]
    split at h
    · rename_i hr; right; simp [hr]
    · split at h
      · simp at h
      · rename_i h1 h2; left; simp [h1, h2]
  · simp at h

/-! ### The parent is the shortest spelling in the path -/

/-- The bytes in the names of some components. -/
def weight (cs : List Comp) : Nat := (cs.map fun c => match c with
  | .root | .cur => 0 | .parent => 2 | .normal n => n.length).sum

theorem weight_append (a b : List Comp) : weight (a ++ b) = weight a + weight b := by simp [weight]

theorem weight_pre (p : Bytes) : weight (pre p) = 0 := by
  unfold pre
  split
  · rfl
  · split <;> rfl

theorem weight_components (p : Bytes) : weight (components p) = weight (body p) := by
  rw [components_eq, weight_append, weight_pre, Nat.zero_add]

theorem weight_plain {t : Bytes} (h : (47 : UInt8) ∉ t) : weight (body t) = if t = [46] then 0 else t.length := by
  unfold body
  rw [splitOn_no_sep h]
  by_cases h1 : t = []
  · subst h1; rfl
  by_cases h2 : t = [46]
  · subst h2; rfl
  rw [if_neg h2]
  by_cases h3 : t = [46, 46]
  · subst h3; rfl
  · simp [single, h1, h2, h3, weight]

/-- The part after the last slash. -/
theorem last_segment (s : Bytes) : (47 : UInt8) ∉ s ∨ ∃ a t, s = a ++ 47 :: t ∧ (47 : UInt8) ∉ t := by
  induction s with
  | nil => exact .inl (by simp)
  | cons x s ih =>
    rcases ih with h | ⟨a, t, rfl, h⟩
    · by_cases hx : x = 47
      · subst hx; exact .inr ⟨[], s, rfl, h⟩
      · refine .inl ?_
        rw [List.mem_cons, not_or]
        exact ⟨fun h => hx h.symm, h⟩
    · exact .inr ⟨x :: a, t, rfl, h⟩

theorem weight_plain_snoc {t : Bytes} {b : UInt8} (h : (47 : UInt8) ∉ t) (hb : b ≠ 47) :
    weight (body t) ≤ weight (body (t ++ [b])) := by
  have h' : (47 : UInt8) ∉ t ++ [b] := by
    simp only [List.mem_append, List.mem_singleton, not_or]
    exact ⟨h, fun h => hb h.symm⟩
  rw [weight_plain h, weight_plain h']
  by_cases h1 : t ++ [b] = [46]
  · have : t = [] := by
      cases t with
      | nil => rfl
      | cons x t => simp at h1
    subst this
    simp
  · rw [if_neg h1]
    split <;> simp

theorem weight_snoc (s : Bytes) (b : UInt8) : weight (body s) ≤ weight (body (s ++ [b])) := by
  by_cases hb : b = 47
  · subst hb
    rw [body_append, body_nil, List.append_nil]
    exact Nat.le_refl _
  rcases last_segment s with h | ⟨a, t, rfl, h⟩
  · exact weight_plain_snoc h hb
  · rw [List.append_assoc, List.cons_append, body_append, body_append, weight_append, weight_append]
    exact Nat.add_le_add_left (weight_plain_snoc h hb) _

theorem weight_prefix {a b : Bytes} (h : a <+: b) : weight (body a) ≤ weight (body b) := by
  obtain ⟨t, rfl⟩ := h
  induction t generalizing a with
  | nil => simp
  | cons x t ih =>
    have := ih (a := a ++ [x])
    rw [List.append_assoc, List.singleton_append] at this
    exact Nat.le_trans (weight_snoc _ _) this

/-- A path that ends in a name weighs more than any of its proper beginnings. -/
theorem weight_name {q l : Bytes} {c : Comp} (hl : single l = some c) (h47 : (47 : UInt8) ∉ l)
    (hq : q = l ∨ ∃ a, q = a ++ 47 :: l) {q' : Bytes} (h : q' <+: q) (hlt : q'.length < q.length) :
    weight (body q') < weight (body q) := by
  have hne : l ≠ [] := by rintro rfl; simp [single] at hl
  have hdot : l ≠ [46] := by rintro rfl; simp [single] at hl
  have e := List.dropLast_concat_getLast hne
  have h1 : (47 : UInt8) ∉ l.dropLast := fun hm => h47 (List.dropLast_subset _ hm)
  have hw : weight (body l.dropLast) < weight (body l) := by
    rw [weight_plain h1, weight_plain h47, if_neg hdot]
    have : l.length ≠ 0 := by simpa using hne
    split
    · omega
    · rw [List.length_dropLast]; omega
  have key : ∀ r, q = r ++ [l.getLast hne] → weight (body r) < weight (body q) → weight (body q') < weight (body q) := by
    intro r hr hlt'
    refine Nat.lt_of_le_of_lt (weight_prefix ?_) hlt'
    rw [hr] at h hlt
    exact (List.prefix_concat_iff.1 h).resolve_left (fun h => by rw [h] at hlt; omega)
  rcases hq with rfl | ⟨a, rfl⟩
  · exact key _ e.symm hw
  · refine key (a ++ 47 :: l.dropLast) ?_ ?_
    · rw [List.append_assoc, List.cons_append, e]
    · rw [body_append, body_append, weight_append, weight_append]
      omega

theorem parent_shortest {p q : Bytes} (h : parent p = some q) {q' : Bytes} (h1 : q' <+: p)
    (h2 : components q' = components q) : q.length ≤ q'.length := by
  have hq := (parent_some h).1
  refine Classical.byContradiction fun hlt => ?_
  have hlt : q'.length < q.length := by omega
  have hpre : q' <+: q := List.prefix_of_prefix_length_le h1 hq (by omega)
  have hw : weight (body q') = weight (body q) := by rw [← weight_components, h2, weight_components]
  unfold parent at h
  simp only at h
  generalize hsegs : splitOn 47 (p.drop (headLen p)) = segs at h
  have hmem : ∀ s ∈ segs, (47 : UInt8) ∉ s := by rw [← hsegs]; exact splitOn_mem
  split at h
  · split at h
    · simp at h
    · split at h
      · simp only [Option.some.injEq] at h
        subst h
        simp at hlt
      · simp at h
  · rename_i hne
    simp only [Option.some.injEq] at h
    obtain ⟨init, m, c, hinit, hm⟩ := trimTrailing_last segs hne
    rw [hinit, List.dropLast_concat] at h
    obtain ⟨t, ht, _⟩ := trimTrailing_prefix segs
    obtain ⟨t', ht', _⟩ := trimTrailing_prefix init
    have hhead : p.take (headLen p) = [] ∨ p.take (headLen p) = [47] ∨
        (p.take (headLen p) = [46] ∧ ∃ r, segs = [] :: r) := by
      unfold headLen at hsegs ⊢
      by_cases hr : hasRoot p = true
      · right; left
        rw [hr]
        cases p with
        | nil => simp [hasRoot] at hr
        | cons x p => simp [hasRoot] at hr; simp [hr]
      · by_cases hc : includeCur p = true
        · right; right
          rw [hc] at hsegs ⊢
          rcases (includeCur_iff p).1 hc with rfl | ⟨r, rfl⟩
          · exact ⟨rfl, [], by rw [← hsegs]; rfl⟩
          · refine ⟨rfl, splitOn 47 r, ?_⟩
            rw [← hsegs]
            simp [splitOn_slash]
        · left
          simp [hr, hc]
    by_cases hti : trimTrailing init = []
    · rw [hti] at h
      simp only [joinWith, List.append_nil] at h
      rcases hhead with h0 | h0 | ⟨h0, _⟩ <;> rw [h0] at h <;> subst h
      · simp at hlt
      · have : q' = [] := by simpa using hlt
        subst this
        exact absurd h2 (by decide)
      · have : q' = [] := by simpa using hlt
        subst this
        exact absurd h2 (by decide)
    · obtain ⟨i, l, d, h5, h6⟩ := trimTrailing_last init hti
      have hl47 : (47 : UInt8) ∉ l := by
        apply hmem l
        rw [ht, hinit, ht', h5]
        simp
      refine absurd hw (Nat.ne_of_lt (weight_name h6 hl47 ?_ hpre hlt))
      rw [h5] at h
      cases i with
      | nil =>
        simp only [List.nil_append, joinWith] at h
        rcases hhead with h0 | h0 | ⟨h0, r, hr⟩
        · rw [h0] at h; exact .inl h.symm
        · rw [h0] at h; exact .inr ⟨[], h.symm⟩
        · rw [ht, hinit, ht', h5] at hr
          simp only [List.nil_append, List.cons_append, List.cons.injEq] at hr
          rw [hr.1] at h6
          simp [single] at h6
      | cons f i =>
        right
        refine ⟨p.take (headLen p) ++ joinWith 47 (f :: i), ?_⟩
        rw [← h, List.cons_append, joinWith_cons, joinWith_cons, List.flatMap_append]
        simp

end SudoPair.Path
