import Verif.Spec.Framework
import Verif.Lemmas.Os
import Verif.Lemmas.Exec
/-
What reporting an error hands to printf.
-/
namespace SudoPair
open Spec

theorem Spec.Says.append {T U V : Bytes} {h h' : Hist} (h1 : Says T h []) (h2 : Says U h' V) :
    Says (T ++ U) (h ++ h') V := by
  generalize hE : ([] : Bytes) = E at h1
  induction h1 with
  | nil => subst hE; exact h2
  | again k1 k2 _ ih => exact .again k1 (k2.trans (List.prefix_append _ _)) (ih hE)
  | @part T fmt h W n k1 k2 k3 _ ih =>
    refine .part n k1 k2 (k3.trans (List.prefix_append _ _)) ?_
    rw [List.drop_append_of_le_length (Nat.le_trans k2 k3.length_le)]
    exact ih hE

theorem Spec.Says.more {T V : Bytes} {h : Hist} (U : Bytes) (h1 : Says T h V) : Says (T ++ U) h (V ++ U) := by
  induction h1 with
  | nil => exact .nil
  | again k1 k2 _ ih => exact .again k1 (k2.trans (List.prefix_append _ _)) ih
  | @part T fmt h W n k1 k2 k3 _ ih =>
    refine .part n k1 k2 (k3.trans (List.prefix_append _ _)) ?_
    rw [List.drop_append_of_le_length (Nat.le_trans k2 k3.length_le)]
    exact ih

/-- Outcomes of saying `T`. -/
inductive Saying (hp : Bool) (T : Bytes) : Out Bool → Hist → Prop
  | all {h} : (T ≠ [] → hp = true) → Says T h [] → Saying hp T (.ok true) h
  | mute : hp = false → Saying hp T (.ok false) []
  | nul {h U} : hp = true → Says T h U → (0 : UInt8) ∈ U → Saying hp T (.ok false) h
  | refused {h U fmt r} : hp = true → Says T h U → fmt ≠ [] → fmt <+: U → r = .fail ∨ r = .wrote 0 →
      Saying hp T (.ok false) (h ++ [⟨.printf 3 fmt, r⟩])
  | overcounted {h U fmt} (k : Nat) : hp = true → Says T h U → fmt <+: U → fmt.length < k →
      Saying hp T .panic (h ++ [⟨.printf 3 fmt, .wrote k⟩])
  | killed {h} : Saying hp T .killed h

/-- A step in front of what is said. -/
theorem Saying.cons {hp : Bool} {T T' : Bytes} {e : Ev} {o h} (hhp : hp = true)
    (hstep : ∀ {h U}, Says T' h U → Says T (e :: h) U) (hs : Saying hp T' o h) : Saying hp T o (e :: h) := by
  cases hs with
  | all _ k => exact .all (fun _ => hhp) (hstep k)
  | mute k => rw [hhp] at k; cases k
  | nul k1 k2 k3 => exact .nul k1 (hstep k2) k3
  | refused k1 k2 k3 k4 k5 => exact .refused (h := e :: _) k1 (hstep k2) k3 k4 k5
  | overcounted k k1 k2 k3 k4 => exact .overcounted (h := e :: _) k k1 (hstep k2) k3 k4
  | killed => exact .killed

/-- Less is said of more. -/
theorem Saying.more {hp : Bool} {T U : Bytes} {o h} (hs : Saying hp T o h) (ho : o ≠ .ok true) :
    Saying hp (T ++ U) o h := by
  cases hs with
  | all => exact absurd rfl ho
  | mute k => exact .mute k
  | nul k1 k2 k3 => exact .nul k1 (k2.more U) (List.mem_append_left _ k3)
  | refused k1 k2 k3 k4 k5 => exact .refused k1 (k2.more U) k3 (k4.trans (List.prefix_append _ _)) k5
  | overcounted k k1 k2 k3 k4 => exact .overcounted k k1 (k2.more U) (k3.trans (List.prefix_append _ _)) k4
  | killed => exact .killed

theorem Spec.Says.nothing {h : Hist} {U : Bytes} (hs : Says [] h U) : h = [] ∧ U = [] := by
  cases hs with
  | nil => exact ⟨rfl, rfl⟩
  | again k1 k2 => exact absurd (List.prefix_nil.1 k2) k1
  | part n k1 k2 k3 =>
    have := List.prefix_nil.1 k3
    subst this
    simp only [List.length_nil] at k2
    omega

/-- One thing after the other. -/
theorem Saying.append {hp : Bool} {T U : Bytes} {h : Hist} {o h'} (hT : T ≠ [] → hp = true) (h1 : Says T h [])
    (h2 : Saying hp U o h') : Saying hp (T ++ U) o (h ++ h') := by
  by_cases hne : T = []
  · subst hne; rw [h1.nothing.1]; exact h2
  have hp1 := hT hne
  cases h2 with
  | all k1 k2 => exact .all (fun _ => hp1) (h1.append k2)
  | mute k => rw [hp1] at k; cases k
  | nul k1 k2 k3 => exact .nul k1 (h1.append k2) k3
  | refused k1 k2 k3 k4 k5 => rw [← List.append_assoc]; exact .refused k1 (h1.append k2) k3 k4 k5
  | overcounted k k1 k2 k3 k4 => rw [← List.append_assoc]; exact .overcounted k k1 (h1.append k2) k3 k4
  | killed => exact .killed

theorem saying_seq_of {hp : Bool} {T : Bytes} {m m' : M Bool} {V : Nat → Bytes} {Q : Out Bool → Prop}
    (hQ : ∀ o, o ≠ .ok true → Q o) (h1 : wp m (Saying hp T))
    (h2 : wp m' fun o h => Q o ∧ ∃ n, Saying hp (V n) o h) :
    wp (do if ← m then m' else pure false) fun o h => Q o ∧ ∃ n, Saying hp (T ++ V n) o h := by
  refine wp_bind (wp_mono h1 ?_)
  rintro ((_ | _) | _ | _) h hs
  · simp only [bindPost, Bool.false_eq_true, if_false]
    refine wp_pure ⟨hQ _ (by simp), 0, ?_⟩
    simpa using hs.more (by simp)
  · simp only [bindPost, if_true]
    cases hs with
    | all k1 k2 => exact wp_mono h2 fun o h' ⟨hq, n, hs⟩ => ⟨hq, n, Saying.append k1 k2 hs⟩
  · exact ⟨hQ _ (by simp), 0, hs.more (by simp)⟩
  · exact ⟨hQ _ (by simp), 0, .killed⟩

theorem saying_seq {hp : Bool} {T U : Bytes} {m m' : M Bool} (h1 : wp m (Saying hp T)) (h2 : wp m' (Saying hp U)) :
    wp (do if ← m then m' else pure false) (Saying hp (T ++ U)) := by
  have := saying_seq_of (Q := fun _ => True) (V := fun _ => U) (fun _ _ => trivial) h1
    (wp_mono h2 fun o h hs => ⟨trivial, 0, hs⟩)
  exact wp_mono this fun o h ⟨_, _, hs⟩ => hs

theorem saying_writeAll (pf : PrintFacility) (hl : pf.level = 3) (buf : Bytes) :
    wp (pf.writeAll buf) fun o h => Saying pf.hasPrintf buf o h := by
  refine wp_writeAll (P := fun buf o h => Saying pf.hasPrintf buf o h) (.all (by simp) .nil) (fun _ _ => .killed) ?_ buf
  intro buf hne
  unfold PrintFacility.write
  rw [hl]
  refine wp_ite (fun hp => wp_pure ?_) (fun hp => wp_ite (fun h0 => wp_pure ?_) (fun h0 => wp_sys ?_ ?_))
  · exact .mute (by simpa using hp)
  · exact .nul (by simpa using hp) .nil h0
  · exact .killed
  · have hp : pf.hasPrintf = true := by simpa using hp
    rintro ((_ | n) | _ | _)
    · exact .refused (h := []) hp .nil hne (List.prefix_refl _) (Or.inr rfl)
    · refine ⟨fun hle o h' hs => ?_, fun hlt => ?_⟩
      · exact hs.cons hp (fun k => .part (n + 1) (Nat.succ_pos _) hle (List.prefix_refl _) k)
      · exact .overcounted (h := []) (n + 1) hp .nil (List.prefix_refl _) hlt
    · exact fun o h' hs => hs.cons hp (fun k => .again hne (List.prefix_refl _) k)
    · exact .refused (h := []) hp .nil hne (List.prefix_refl _) (Or.inl rfl)

theorem saying_writeLine (pf : PrintFacility) (name : Bytes) (hl : pf.level = 3) (ht : pf.tag = name ++ b! ": ")
    (text : Bytes) : wp (pf.writeLine text) (Saying pf.hasPrintf (line name text)) := by
  unfold PrintFacility.writeLine line
  rw [List.append_assoc, ← ht]
  exact saying_seq (saying_writeAll pf hl _) (saying_seq (saying_writeAll pf hl _) (saying_writeAll pf hl _))

theorem saying_sourceLoop (pf : PrintFacility) (name : Bytes) (hl : pf.level = 3) (ht : pf.tag = name ++ b! ": ")
    (text : Bytes) (fuel : Nat) : wp (pf.sourceLoop (some text) fuel) fun o h =>
      o ≠ .ok true ∧ ∃ n, Saying pf.hasPrintf (List.replicate n (line name text)).flatten o h := by
  induction fuel with
  | zero => exact wp_killed ⟨by simp, 0, .killed⟩
  | succ fuel ih =>
    unfold PrintFacility.sourceLoop
    refine wp_mono (saying_seq_of (Q := fun o => o ≠ .ok true) (fun _ h => h)
      (saying_writeLine pf name hl ht text) ih) ?_
    rintro o h ⟨h1, n, h2⟩
    exact ⟨h1, n + 1, by rwa [List.replicate_succ, List.flatten_cons]⟩

/-- Reporting an error with printf. -/
theorem writeError_complains {pf : PrintFacility} {name text : Bytes} {source : Option Bytes} {o h}
    (hl : pf.level = 3) (ht : pf.tag = name ++ b! ": ") (hr : Runs (pf.writeError text source) o h) :
    o = .killed ∨ (o = .panic ∧ Complains pf.hasPrintf name text source true h) ∨
      ∃ b, o = .ok b ∧ Complains pf.hasPrintf name text source false h := by
  have key : wp (pf.writeError text source) fun o h =>
      ∃ n, Saying pf.hasPrintf (message name text source n) o h ∧ (source ≠ none → o ≠ .ok true) := by
    unfold PrintFacility.writeError
    cases source with
    | none =>
      have : wp _ _ := saying_seq (hp := pf.hasPrintf) (saying_writeAll pf hl (b! "\n"))
        (saying_seq (saying_writeLine pf name hl ht text)
          (m' := fun s => pf.sourceLoop none (s.length + 1) s) (U := []) (fun s => .all (by simp) .nil))
      exact wp_mono this fun o h hs => ⟨0, by simpa [message] using hs, by simp⟩
    | some t =>
      have : wp _ _ := saying_seq_of (hp := pf.hasPrintf) (Q := fun o => o ≠ .ok true) (fun _ h => h)
        (saying_writeAll pf hl (b! "\n"))
        (saying_seq_of (Q := fun o => o ≠ .ok true) (fun _ h => h) (saying_writeLine pf name hl ht text)
          (m' := fun s => pf.sourceLoop (some t) (s.length + 1) s)
          (fun s => saying_sourceLoop pf name hl ht t (s.length + 1) s))
      exact wp_mono this fun o h ⟨h1, n, hs⟩ => ⟨n, by simpa [message] using hs, fun _ => h1⟩
  obtain ⟨n, hs, hb⟩ := wp_iff_runs.1 key o h hr
  cases hs with
  | all k1 k2 =>
    cases source with
    | none => exact Or.inr (Or.inr ⟨_, rfl, .told (k1 (by simp [message])) rfl k2⟩)
    | some t => exact absurd rfl (hb (by simp))
  | mute k => exact Or.inr (Or.inr ⟨_, rfl, .mute k⟩)
  | nul k1 k2 k3 => exact Or.inr (Or.inr ⟨_, rfl, .nul k1 k2 k3⟩)
  | refused k1 k2 k3 k4 k5 => exact Or.inr (Or.inr ⟨_, rfl, .refused k1 k2 k3 k4 k5⟩)
  | overcounted k k1 k2 k3 k4 => exact Or.inr (Or.inl ⟨rfl, .overcounted k k1 k2 k3 k4⟩)
  | killed => exact Or.inl rfl

end SudoPair
