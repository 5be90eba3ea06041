import Verif.Model.Core
import Verif.Lemmas.Os
/-
Runs of effectful code (outcome and history for some schedule), inversion rules, and the
decomposition of the handshake into its phases.
-/
namespace SudoPair

variable {α β : Type}

/-- `m` can end with outcome `o` after history `h`. -/
def Runs (m : M α) (o : Out α) (h : Hist) : Prop := ∃ s, (m s).1 = o ∧ (m s).2.1 = h

theorem runs_of {m : M α} {s : Sched} {o h s'} (hm : m s = (o, h, s')) : Runs m o h :=
  ⟨s, by rw [hm], by rw [hm]⟩

theorem wp_iff_runs {m : M α} {Q : Out α → Hist → Prop} : wp m Q ↔ ∀ o h, Runs m o h → Q o h := by
  constructor
  · rintro h o t ⟨s, rfl, rfl⟩; exact h s
  · intro h s; exact h _ _ ⟨s, rfl, rfl⟩

theorem Runs.pure {a : α} {o h} (hr : Runs (pure a : M α) o h) : o = .ok a ∧ h = [] := by
  obtain ⟨s, h1, h2⟩ := hr; exact ⟨h1.symm, h2.symm⟩

theorem Runs.panic {o : Out α} {h} (hr : Runs (M.panic : M α) o h) : o = .panic ∧ h = [] := by
  obtain ⟨s, h1, h2⟩ := hr; exact ⟨h1.symm, h2.symm⟩

theorem Runs.ofOption {x : Option α} {o h} (hr : Runs (M.ofOption x) o h) :
    h = [] ∧ ((x = none ∧ o = .panic) ∨ ∃ a, x = some a ∧ o = .ok a) := by
  cases x with
  | none => obtain ⟨h1, h2⟩ := Runs.panic hr; exact ⟨h2, Or.inl ⟨rfl, h1⟩⟩
  | some a => obtain ⟨h1, h2⟩ := Runs.pure hr; exact ⟨h2, Or.inr ⟨a, rfl, h1⟩⟩

theorem Runs.sys {c : Sys} {o h} (hr : Runs (M.sys c) o h) :
    (o = .killed ∧ h = []) ∨ ∃ r, o = .ok r ∧ h = [⟨c, r⟩] := by
  obtain ⟨s, h1, h2⟩ := hr
  cases s with
  | nil => exact Or.inl ⟨h1.symm, h2.symm⟩
  | cons a s => exact Or.inr ⟨a c, h1.symm, h2.symm⟩

theorem Runs.bind {m : M α} {f : α → M β} {o h} (hr : Runs (m >>= f) o h) :
    (∃ a h1 h2, Runs m (.ok a) h1 ∧ Runs (f a) o h2 ∧ h = h1 ++ h2) ∨
    (o = .panic ∧ Runs m .panic h) ∨ (o = .killed ∧ Runs m .killed h) := by
  obtain ⟨s, h1, h2⟩ := hr
  rw [M.bind_def] at h1 h2
  rcases hm : m s with ⟨a | _ | _, t, s'⟩ <;> rw [hm] at h1 h2 <;> simp only at h1 h2
  · exact Or.inl ⟨a, t, _, runs_of hm, ⟨s', h1, rfl⟩, h2.symm⟩
  · subst h1 h2; exact Or.inr (Or.inl ⟨rfl, runs_of hm⟩)
  · subst h1 h2; exact Or.inr (Or.inr ⟨rfl, runs_of hm⟩)

theorem Runs.sys_bind {c : Sys} {f : Resp c → M β} {o h} (hr : Runs (M.sys c >>= f) o h) :
    (o = .killed ∧ h = []) ∨ ∃ r h', Runs (f r) o h' ∧ h = ⟨c, r⟩ :: h' := by
  rcases hr.bind with ⟨a, h1, h2, h3, h4, h5⟩ | ⟨h1, h2⟩ | ⟨h1, h2⟩
  · rcases h3.sys with ⟨h6, _⟩ | ⟨r, h6, h7⟩
    · simp at h6
    · simp only [Out.ok.injEq] at h6; subst h6 h7; exact Or.inr ⟨a, h2, h4, h5⟩
  · rcases h2.sys with ⟨h6, _⟩ | ⟨r, h6, h7⟩ <;> simp at h6
  · rcases h2.sys with ⟨_, h6⟩ | ⟨r, h6, h7⟩
    · exact Or.inl ⟨h1, h6⟩
    · simp at h6

theorem Runs.pure_bind {a : α} {f : α → M β} {o h} (hr : Runs ((Pure.pure a : M α) >>= f) o h) :
    Runs (f a) o h := by
  rcases hr.bind with ⟨b, h1, h2, h3, h4, h5⟩ | ⟨h1, h2⟩ | ⟨h1, h2⟩
  · obtain ⟨h6, h7⟩ := h3.pure
    simp only [Out.ok.injEq] at h6; subst h6 h7; subst h5; exact h4
  · exact absurd h2.pure.1 (by simp)
  · exact absurd h2.pure.1 (by simp)

theorem Runs.ofOption_bind {x : Option α} {f : α → M β} {o h} (hr : Runs (M.ofOption x >>= f) o h) :
    (x = none ∧ o = .panic ∧ h = []) ∨ ∃ a, x = some a ∧ Runs (f a) o h := by
  cases x with
  | none =>
    rcases hr.bind with ⟨b, h1, h2, h3, h4, h5⟩ | ⟨h1, h2⟩ | ⟨h1, h2⟩
    · exact absurd h3.panic.1 (by simp)
    · exact Or.inl ⟨rfl, h1, h2.panic.2⟩
    · exact absurd h2.panic.1 (by simp)
  | some a => exact Or.inr ⟨a, rfl, Runs.pure_bind hr⟩

theorem Runs.catchUnwind {m : M α} {o h} (hr : Runs (M.catchUnwind m) o h) :
    (∃ a, o = .ok (some a) ∧ Runs m (.ok a) h) ∨ (o = .ok none ∧ Runs m .panic h) ∨
    (o = .killed ∧ Runs m .killed h) := by
  obtain ⟨s, h1, h2⟩ := hr
  unfold M.catchUnwind at h1 h2
  rcases hm : m s with ⟨a | _ | _, t, s'⟩ <;> rw [hm] at h1 h2 <;> simp only at h1 h2 <;> subst h1 h2
  · exact Or.inl ⟨a, rfl, runs_of hm⟩
  · exact Or.inr (Or.inl ⟨rfl, runs_of hm⟩)
  · exact Or.inr (Or.inr ⟨rfl, runs_of hm⟩)

theorem Runs.onUnwind {m : M α} {c : M Unit} {o h} (hr : Runs (M.onUnwind m c) o h) :
    (Runs m o h ∧ o ≠ .panic) ∨
    (∃ h1 h2 o2, Runs m .panic h1 ∧ Runs c o2 h2 ∧ h = h1 ++ h2 ∧
      ((o2 = .killed ∧ o = .killed) ∨ (o2 ≠ .killed ∧ o = .panic))) := by
  obtain ⟨s, h1, h2⟩ := hr
  unfold M.onUnwind at h1 h2
  rcases hm : m s with ⟨a | _ | _, t, s'⟩ <;> rw [hm] at h1 h2 <;> simp only at h1 h2
  · subst h1 h2; exact Or.inl ⟨runs_of hm, by simp⟩
  · right
    rcases hc : c s' with ⟨a | _ | _, t', s''⟩ <;> rw [hc] at h1 h2 <;> simp only at h1 h2
    · exact ⟨t, t', _, runs_of hm, runs_of hc, h2.symm, Or.inr ⟨by simp, h1.symm⟩⟩
    · exact ⟨t, t', _, runs_of hm, runs_of hc, h2.symm, Or.inr ⟨by simp, h1.symm⟩⟩
    · exact ⟨t, t', _, runs_of hm, runs_of hc, h2.symm, Or.inl ⟨rfl, h1.symm⟩⟩
  · subst h1 h2; exact Or.inl ⟨runs_of hm, by simp⟩

/-- `inv lemma h with pats`: apply an inversion lemma to `h`, forget `h`, and split. -/
macro "inv " l:ident h:ident " with " pat:Lean.Parser.Tactic.rcasesPatLo : tactic =>
  `(tactic| (have hInv := $l $h; clear $h; rcases hInv with $pat))

/-! ### Event-wise invariants -/

/-- Every event of every run of `m` satisfies `P`. -/
def AllEv (P : Ev → Prop) (m : M α) : Prop := wp m (fun _ h => ∀ e ∈ h, P e)

variable {P : Ev → Prop}

theorem AllEv.of_runs {m : M α} (hm : AllEv P m) {o h} (hr : Runs m o h) : ∀ e ∈ h, P e :=
  wp_iff_runs.1 hm o h hr

theorem allEv_pure (a : α) : AllEv P (pure a) := wp_pure (by simp)

theorem allEv_panic : AllEv P (M.panic : M α) := wp_panic (by simp)

theorem allEv_killed : AllEv P (M.killed : M α) := wp_killed (by simp)

theorem allEv_ofOption (x : Option α) : AllEv P (M.ofOption x) := by
  cases x
  · exact allEv_panic
  · exact allEv_pure _

theorem allEv_sys {c : Sys} (h : ∀ r, P ⟨c, r⟩) : AllEv P (M.sys c) :=
  wp_sys (by simp) (by simpa using h)

theorem allEv_bind {m : M α} {f : α → M β} (hm : AllEv P m) (hf : ∀ a, AllEv P (f a)) :
    AllEv P (m >>= f) := by
  refine wp_bind (wp_mono hm ?_)
  rintro (a | _ | _) h hh
  · simp only [bindPost]
    refine wp_mono (hf a) ?_
    intro o h' hh' e he
    rcases List.mem_append.1 he with he | he
    · exact hh e he
    · exact hh' e he
  · exact hh
  · exact hh

theorem allEv_ite {c : Prop} [Decidable c] {m n : M α} (hm : AllEv P m) (hn : AllEv P n) :
    AllEv P (if c then m else n) := by split <;> assumption

theorem allEv_catchUnwind {m : M α} (hm : AllEv P m) : AllEv P (M.catchUnwind m) := by
  refine wp_catchUnwind (wp_mono hm ?_)
  rintro (a | _ | _) h hh <;> exact hh

theorem allEv_onUnwind {m : M α} {c : M Unit} (hm : AllEv P m) (hc : AllEv P c) :
    AllEv P (M.onUnwind m c) := by
  refine wp_onUnwind (wp_mono hm ?_)
  rintro (a | _ | _) h hh
  · exact hh
  · simp only [unwindPost]
    refine wp_mono hc ?_
    have : ∀ h' : Hist, (∀ e ∈ h', P e) → ∀ e ∈ h ++ h', P e := by
      intro h' hh' e he
      rcases List.mem_append.1 he with he | he
      · exact hh e he
      · exact hh' e he
    rintro (a | _ | _) h' hh' <;> exact this h' hh'
  · exact hh

theorem allEv_writeAll {w : Bytes → M WriteRes} (hw : ∀ b, AllEv P (w b)) (buf : Bytes) :
    AllEv P (writeAll w buf) := by
  have happ : ∀ h h' : Hist, (∀ e ∈ h, P e) → (∀ e ∈ h', P e) → ∀ e ∈ h ++ h', P e := by
    intro h h' hh hh' e he
    rcases List.mem_append.1 he with he | he
    · exact hh e he
    · exact hh' e he
  refine wp_writeAll (P := fun _ _ h => ∀ e ∈ h, P e) (by simp) (by simp) ?_ buf
  intro b _
  refine wp_mono (hw b) ?_
  rintro (((_ | n) | _ | _) | _ | _) h hh
  · exact hh
  · exact ⟨fun _ o h' hh' => happ h h' hh hh', fun _ => hh⟩
  · exact fun o h' hh' => happ h h' hh hh'
  · exact hh
  · exact hh
  · exact hh

/-! ### Quiet code: only reads files and talks to the user -/

/-- An interaction with the invoking user or a read of a prompt file. -/
def QuietCall : Sys → Prop
  | .readFile _ => True
  | .ttyOpen _ => True
  | .ttyWrite _ => True
  | .printf _ _ => True
  | _ => False

/-- A history of such interactions only. -/
def Quiet (h : Hist) : Prop := ∀ e ∈ h, QuietCall e.call

theorem quiet_nil : Quiet [] := by simp [Quiet]

theorem Quiet.append {h h' : Hist} (a : Quiet h) (b : Quiet h') : Quiet (h ++ h') := by
  intro e he
  rcases List.mem_append.1 he with he | he
  · exact a e he
  · exact b e he

/-- A message to the invoking user through sudo's printf. -/
def PrintCall : Sys → Prop
  | .printf _ _ => True
  | _ => False

/-- A history of such messages only. -/
def Prints (h : Hist) : Prop := ∀ e ∈ h, PrintCall e.call

theorem Prints.quiet {h : Hist} (a : Prints h) : Quiet h := by
  intro e he
  have := a e he
  rcases e with ⟨c, r⟩
  cases c <;> first | exact False.elim this | trivial

theorem allEv_mono {P Q : Ev → Prop} {m : M α} (hm : AllEv P m) (h : ∀ e, P e → Q e) : AllEv Q m :=
  wp_mono hm fun _ _ hh e he => h e (hh e he)

theorem printWriteAll_prints (pf : PrintFacility) (buf : Bytes) :
    AllEv (fun e => PrintCall e.call) (pf.writeAll buf) := by
  refine allEv_writeAll (fun b => ?_) buf
  unfold PrintFacility.write
  refine allEv_ite (allEv_pure _) (allEv_ite (allEv_pure _) (allEv_sys ?_))
  intro r; trivial

theorem writeLine_prints (pf : PrintFacility) (l : Bytes) :
    AllEv (fun e => PrintCall e.call) (pf.writeLine l) := by
  unfold PrintFacility.writeLine
  refine allEv_bind (printWriteAll_prints pf _) (fun b => allEv_ite ?_ (allEv_pure _))
  exact allEv_bind (printWriteAll_prints pf _) (fun b => allEv_ite (printWriteAll_prints pf _) (allEv_pure _))

theorem sourceLoop_prints (pf : PrintFacility) (src : Option Bytes) (n : Nat) :
    AllEv (fun e => PrintCall e.call) (pf.sourceLoop src n) := by
  induction n with
  | zero => exact allEv_killed
  | succ n ih =>
    unfold PrintFacility.sourceLoop
    split
    · exact allEv_pure _
    · exact allEv_bind (writeLine_prints pf _) (fun b => allEv_ite ih (allEv_pure _))

theorem writeError_prints (pf : PrintFacility) (m : Bytes) (src : Option Bytes) :
    AllEv (fun e => PrintCall e.call) (pf.writeError m src) := by
  unfold PrintFacility.writeError
  refine allEv_bind (printWriteAll_prints pf _) (fun b => allEv_ite ?_ (allEv_pure _))
  refine allEv_bind (writeLine_prints pf _) (fun b => allEv_ite ?_ (allEv_pure _))
  intro s
  exact sourceLoop_prints pf src (s.length + 1) s

theorem writePieces_prints (pf : PrintFacility) (l : List Bytes) :
    AllEv (fun e => PrintCall e.call) (Core.writePieces pf l) := by
  induction l with
  | nil => exact allEv_pure _
  | cons p ps ih =>
    exact allEv_bind (printWriteAll_prints pf _) (fun b => allEv_ite ih (allEv_pure _))

theorem printWriteAll_quiet (pf : PrintFacility) (buf : Bytes) :
    AllEv (fun e => QuietCall e.call) (pf.writeAll buf) := by
  refine allEv_mono (printWriteAll_prints pf buf) ?_
  rintro ⟨c, r⟩ h
  cases c <;> first | exact False.elim h | trivial

theorem localPairPrompt_quiet (p : Pair) (spec : TemplateSpec) :
    AllEv (fun e => QuietCall e.call) (p.localPairPrompt spec) := by
  unfold Pair.localPairPrompt
  refine allEv_bind (allEv_sys (fun _ => trivial)) (fun t => ?_)
  refine allEv_bind ?_ (fun b => allEv_ite (allEv_pure _)
    (allEv_bind (printWriteAll_quiet _ _) (fun _ => allEv_pure _)))
  unfold Pair.ttyPrompt
  split
  · exact allEv_pure _
  · refine allEv_bind (allEv_sys (fun _ => trivial)) (fun b => allEv_ite ?_ (allEv_pure _))
    exact allEv_writeAll (fun b => allEv_sys (fun _ => trivial)) _

end SudoPair
