import Verif.Props.SockIo
import Verif.Spec.Printf
/-
C40, C41, C45: messages to the invoking user.
-/
namespace SudoPair
open Spec

/-! ### C40 -/

theorem render_plain : ∀ {s : Bytes}, (37 : UInt8) ∉ s → render s = some s
  | [], _ => rfl
  | [b], h => by
    have : b ≠ 37 := fun hb => h (by simp [hb])
    unfold render
    split <;> simp_all
  | b :: c :: s, h => by
    have h1 : b ≠ 37 := fun hb => h (by simp [hb])
    have h2 : (37 : UInt8) ∉ c :: s := fun hc => h (List.mem_cons_of_mem _ hc)
    rw [render, if_neg h1, render_plain h2]
    rfl

theorem screen_append {a b : Hist} {s t : Bytes} (ha : screen a = some s) (hb : screen b = some t) :
    screen (a ++ b) = some (s ++ t) := by
  induction a generalizing s with
  | nil => simp only [screen, Option.some.injEq] at ha; subst ha; simpa using hb
  | cons e a ih =>
    rcases e with ⟨c, r⟩
    cases c <;> try (exact ih ha)
    rename_i level fmt
    cases r with
    | wrote n =>
      simp only [List.cons_append, screen] at ha ⊢
      cases hr : render fmt with
      | none => rw [hr] at ha; simp at ha
      | some x =>
        rw [hr] at ha
        simp only [Option.bind_some] at ha ⊢
        cases hs : screen a with
        | none => rw [hs] at ha; simp at ha
        | some y =>
          rw [hs] at ha
          simp only [Option.map_some, Option.some.injEq] at ha
          rw [ih hs, ← ha]
          simp
    | intr => exact ih ha
    | fail => exact ih ha

theorem Spec.PrintfTruth.left {a b : Hist} (h : PrintfTruth (a ++ b)) : PrintfTruth a :=
  fun l f n t hm => h l f n t (List.mem_append_left _ hm)

theorem Spec.PrintfTruth.right {a b : Hist} (h : PrintfTruth (a ++ b)) : PrintfTruth b :=
  fun l f n t hm => h l f n t (List.mem_append_right _ hm)

/-- Printing a text without `%`. -/
structure Printed (pf : PrintFacility) (buf : Bytes) (o : Out Bool) (h : Hist) : Prop where
  calls : ∀ e ∈ h, ∃ fmt, e.call = .printf pf.level fmt ∧ fmt <:+ buf ∧ (0 : UInt8) ∉ fmt
  yes : o = .ok true → screen h = some buf
  no : o = .ok false → screen h = some [] ∧ (pf.hasPrintf = false ∨ (0 : UInt8) ∈ buf ∨ ∃ e ∈ h, PrintfFails e)
  noPanic : o ≠ .panic

theorem printWriteAll_calls (pf : PrintFacility) (buf : Bytes) : wp (pf.writeAll buf) fun _ h =>
    ∀ e ∈ h, ∃ fmt, e.call = .printf pf.level fmt ∧ fmt <:+ buf ∧ (0 : UInt8) ∉ fmt := by
  refine wp_writeAll (P := fun buf _ h => ∀ e ∈ h, ∃ fmt, e.call = .printf pf.level fmt ∧ fmt <:+ buf ∧
    (0 : UInt8) ∉ fmt) (by simp) (by simp) ?_ buf
  intro buf hne
  unfold PrintFacility.write
  have mono : ∀ {n : Nat} {h' : Hist}, (∀ e ∈ h', ∃ fmt, Ev.call e = .printf pf.level fmt ∧ fmt <:+ buf.drop n ∧ (0 : UInt8) ∉ fmt) →
      ∀ e ∈ h', ∃ fmt, Ev.call e = .printf pf.level fmt ∧ fmt <:+ buf ∧ (0 : UInt8) ∉ fmt := by
    intro n h' hh e he
    obtain ⟨fmt, h1, h2, h3⟩ := hh e he
    exact ⟨fmt, h1, h2.trans (List.drop_suffix _ _), h3⟩
  refine wp_ite (fun _ => wp_pure (by simp [roundPost])) (fun _ => wp_ite (fun _ => wp_pure (by simp [roundPost]))
    (fun h0 => wp_sys (by simp [roundPost]) ?_))
  have one : ∀ r, ∀ e ∈ [(⟨.printf pf.level buf, r⟩ : Ev)], ∃ fmt, e.call = .printf pf.level fmt ∧ fmt <:+ buf ∧
      (0 : UInt8) ∉ fmt := by
    intro r e he
    simp only [List.mem_singleton] at he
    subst he
    exact ⟨buf, rfl, List.suffix_refl _, h0⟩
  rintro ((_ | n) | _ | _)
  · exact one _
  · exact ⟨fun _ o h' hp => List.forall_mem_append.2 ⟨one _, mono hp⟩, fun _ => one _⟩
  · exact fun o h' hp => List.forall_mem_append.2 ⟨one _, hp⟩
  · exact one _

theorem printWriteAll_printed {pf : PrintFacility} {buf : Bytes} {o h} (hr : Runs (pf.writeAll buf) o h)
    (hpc : (37 : UInt8) ∉ buf) (ht : PrintfTruth h) : Printed pf buf o h := by
  have key : wp (pf.writeAll buf) fun o h => (37 : UInt8) ∉ buf → PrintfTruth h →
      (buf = [] → o = .ok true ∧ h = []) ∧ (o = .ok true → screen h = some buf) ∧
      (o = .ok false → screen h = some [] ∧
        (pf.hasPrintf = false ∨ (0 : UInt8) ∈ buf ∨ ∃ e ∈ h, PrintfFails e)) ∧ o ≠ .panic := by
    refine wp_writeAll (P := fun buf o h => (37 : UInt8) ∉ buf → PrintfTruth h →
      (buf = [] → o = .ok true ∧ h = []) ∧ (o = .ok true → screen h = some buf) ∧
      (o = .ok false → screen h = some [] ∧
        (pf.hasPrintf = false ∨ (0 : UInt8) ∈ buf ∨ ∃ e ∈ h, PrintfFails e)) ∧ o ≠ .panic) ?_ ?_ ?_ buf
    · intro _ _; exact ⟨by simp, by simp [screen], by simp, by simp⟩
    · intro buf hne _ _; exact ⟨fun h => absurd h hne, by simp, by simp, by simp⟩
    · intro buf hne
      unfold PrintFacility.write
      refine wp_ite (fun hp => wp_pure ?_) (fun hp => wp_ite (fun h0 => wp_pure ?_) (fun h0 => wp_sys ?_ ?_))
      · intro _ _
        exact ⟨fun h => absurd h hne, by simp, fun _ => ⟨rfl, Or.inl (by simpa using hp)⟩, by simp⟩
      · intro _ _
        exact ⟨fun h => absurd h hne, by simp, fun _ => ⟨rfl, Or.inr (Or.inl h0)⟩, by simp⟩
      · intro _ _; exact ⟨fun h => absurd h hne, by simp, by simp, by simp⟩
      · have hlen : ∀ {n : Nat} {h' : Hist}, (37 : UInt8) ∉ buf →
            PrintfTruth ((⟨.printf pf.level buf, .wrote n⟩ : Ev) :: h') → n = buf.length := by
          intro n h' h1 h2
          exact h2 pf.level buf n buf (by simp) (render_plain h1)
        rintro ((_ | n) | _ | _)
        · intro h1 h2
          have := hlen h1 h2
          exact absurd (List.eq_nil_of_length_eq_zero this.symm) hne
        · refine ⟨fun hle o h' hp h1 h2 => ?_, fun hlt h1 h2 => ?_⟩
          · have hn := hlen h1 h2
            have hnil : buf.drop (n + 1) = [] := by rw [hn]; simp
            rw [hnil] at hp
            obtain ⟨rfl, rfl⟩ := (hp (by simp) (PrintfTruth.right (a := [_]) h2)).1 rfl
            refine ⟨fun h => absurd h hne, fun _ => ?_, by simp, by simp⟩
            simp [screen, render_plain h1]
          · have := hlen h1 h2; omega
        · intro o h' hp h1 h2
          obtain ⟨k1, k2, k3, k4⟩ := hp h1 (PrintfTruth.right (a := [_]) h2)
          refine ⟨fun h => absurd h hne, fun ho => ?_, fun ho => ?_, k4⟩
          · simpa [screen] using k2 ho
          · obtain ⟨k5, k6⟩ := k3 ho
            refine ⟨by simpa [screen] using k5, ?_⟩
            rcases k6 with k6 | k6 | ⟨e, k6, k7⟩
            · exact Or.inl k6
            · exact Or.inr (Or.inl k6)
            · exact Or.inr (Or.inr ⟨e, List.mem_append_right _ k6, k7⟩)
        · intro h1 h2
          refine ⟨fun h => absurd h hne, by simp, fun _ => ⟨rfl, Or.inr (Or.inr ⟨_, List.mem_singleton.2 rfl, ?_⟩)⟩, by simp⟩
          exact Or.inl rfl
  obtain ⟨_, k2, k3, k4⟩ := wp_iff_runs.1 key o h hr hpc ht
  exact ⟨wp_iff_runs.1 (printWriteAll_calls pf buf) o h hr, k2, k3, k4⟩

/-- The full C40 statement: for every text without NUL bytes, when `write_all` on sudo's printf facility
reports success then exactly the text was shown.  It holds for texts without a percent sign; see
`C40_counterexample` for the others. -/
def C40Full : Prop := ∀ (pf : PrintFacility) (buf : Bytes) (h : Hist), (0 : UInt8) ∉ buf →
  Runs (pf.writeAll buf) (.ok true) h → PrintfTruth h → screen h = some buf

/-- C40 for texts without a percent sign: shown exactly, or not at all and reported; never a panic. -/
theorem C40_verbatim_partial {pf : PrintFacility} {buf : Bytes} {o h} (hr : Runs (pf.writeAll buf) o h)
    (hpc : (37 : UInt8) ∉ buf) (ht : PrintfTruth h) :
    (o = .ok true ∧ screen h = some buf) ∨
    (o = .ok false ∧ screen h = some [] ∧
      (pf.hasPrintf = false ∨ (0 : UInt8) ∈ buf ∨ ∃ e ∈ h, PrintfFails e)) ∨ o = .killed := by
  have k := printWriteAll_printed hr hpc ht
  rcases o with (_ | _) | _ | _
  · exact Or.inr (Or.inl ⟨rfl, k.no rfl⟩)
  · exact Or.inl ⟨rfl, k.yes rfl⟩
  · exact absurd rfl k.noPanic
  · exact Or.inr (Or.inr rfl)

/-- C40 for lines: the plugin's name, the text and a line feed. -/
theorem C40_line_partial {pf : PrintFacility} {line : Bytes} {h} (hr : Runs (pf.writeLine line) (.ok true) h)
    (htag : (37 : UInt8) ∉ pf.tag) (hpc : (37 : UInt8) ∉ line) (ht : PrintfTruth h) :
    screen h = some (pf.tag ++ line ++ b! "\n") := by
  unfold PrintFacility.writeLine at hr
  inv Runs.bind hr with ⟨b, h1, h2, k1, hr, rfl⟩ | ⟨h, _⟩ | ⟨h, _⟩
  · cases b with
    | false => have := hr.pure.1; simp at this
    | true =>
      simp only [if_true] at hr
      inv Runs.bind hr with ⟨b, h3, h4, k2, hr, rfl⟩ | ⟨h, _⟩ | ⟨h, _⟩
      · cases b with
        | false => have := hr.pure.1; simp at this
        | true =>
          simp only [if_true] at hr
          have e1 := (printWriteAll_printed k1 htag ht.left).yes rfl
          have e2 := (printWriteAll_printed k2 hpc ht.right.left).yes rfl
          have e3 := (printWriteAll_printed hr (by decide) ht.right.right).yes rfl
          rw [List.append_assoc]
          exact screen_append e1 (screen_append e2 e3)
      · simp at h
      · simp at h
  · simp at h
  · simp at h

theorem sourceLoop_none {pf : PrintFacility} (n : Nat) : pf.sourceLoop none (n + 1) = pure true := rfl

/-- Runs of `write_error` for an error without a cause. -/
theorem writeError_none (pf : PrintFacility) (msg : Bytes) : pf.writeError msg none = (do
    if ← pf.writeAll (b! "\n") then
      if ← pf.writeLine msg then pure true else pure false
    else pure false) := rfl

/-- C40 for errors (without a cause, as all errors of both crates are): an empty line, then the line. -/
theorem C40_error_partial {pf : PrintFacility} {msg : Bytes} {h} (hr : Runs (pf.writeError msg none) (.ok true) h)
    (htag : (37 : UInt8) ∉ pf.tag) (hpc : (37 : UInt8) ∉ msg) (ht : PrintfTruth h) :
    screen h = some (b! "\n" ++ (pf.tag ++ msg ++ b! "\n")) := by
  rw [writeError_none] at hr
  inv Runs.bind hr with ⟨b, h1, h2, k1, hr, rfl⟩ | ⟨h, _⟩ | ⟨h, _⟩
  · cases b with
    | false => have := hr.pure.1; simp at this
    | true =>
      simp only [if_true] at hr
      inv Runs.bind hr with ⟨b, h3, h4, k2, hr, rfl⟩ | ⟨h, _⟩ | ⟨h, _⟩
      · cases b with
        | false => have := hr.pure.1; simp at this
        | true =>
          obtain ⟨_, rfl⟩ := hr.pure
          rw [List.append_nil] at ht ⊢
          exact screen_append ((printWriteAll_printed k1 (by decide) ht.left).yes rfl)
            (C40_line_partial k2 htag hpc ht.right)
      · simp at h
      · simp at h
  · simp at h
  · simp at h

/-- None of sudo_pair's own error messages contains a percent sign or a NUL byte. -/
theorem errorKind_plain (e : ErrorKind) : (37 : UInt8) ∉ e.display ∧ (0 : UInt8) ∉ e.display := by
  cases e <;> decide

/-- C40, unconditionally for all errors of sudo_pair itself. -/
theorem C40_errors_of_sudo_pair {hasPrintf : Bool} {e : ErrorKind} {h}
    (hr : Runs ((PrintFacility.stderr hasPrintf).writeError e.display none) (.ok true) h) (ht : PrintfTruth h) :
    screen h = some (b! "\nsudo_pair: " ++ e.display ++ b! "\n") := by
  have := C40_error_partial hr (by show (37 : UInt8) ∉ b! "sudo_pair: "; decide) (errorKind_plain e).1 ht
  rw [this]
  simp [PrintFacility.stderr]

/-- C40, unconditionally for `show_version`. -/
theorem C40_version {hasPrintf : Bool} {h}
    (hr : Runs (Core.writePieces (PrintFacility.stdout hasPrintf) Core.versionPieces) (.ok true) h)
    (ht : PrintfTruth h) : screen h = some (b! "sudo_pair I/O plugin version 1.2.0\n") := by
  have key : ∀ (l : List Bytes) h, (∀ x ∈ l, (37 : UInt8) ∉ x) → PrintfTruth h →
      Runs (Core.writePieces (PrintFacility.stdout hasPrintf) l) (.ok true) h → screen h = some l.flatten := by
    intro l
    induction l with
    | nil =>
      intro h _ _ hr
      obtain ⟨_, rfl⟩ := hr.pure
      rfl
    | cons x l ih =>
      intro h hx ht hr
      unfold Core.writePieces at hr
      inv Runs.bind hr with ⟨b, h1, h2, k1, hr, rfl⟩ | ⟨h, _⟩ | ⟨h, _⟩
      · cases b with
        | false => have := hr.pure.1; simp at this
        | true =>
          simp only [if_true] at hr
          exact screen_append ((printWriteAll_printed k1 (hx x (by simp)) ht.left).yes rfl)
            (ih _ (fun y hy => hx y (by simp [hy])) ht.right hr)
      · simp at h
      · simp at h
  rw [key _ _ (by decide) ht hr]
  decide

/-! #### Which format strings are ever passed to printf -/

/-- Every format string passed to printf is free of percent signs or one of `O`. -/
abbrev Formats {α : Type} (O : Bytes → Prop) (m : M α) : Prop :=
  AllEv (fun e => ∀ level fmt, e.call = .printf level fmt → (37 : UInt8) ∉ fmt ∨ O fmt) m

section
variable {O : Bytes → Prop}

theorem formats_writeAll (pf : PrintFacility) {buf : Bytes}
    (hb : (37 : UInt8) ∉ buf ∨ ∀ f, f <:+ buf → O f) : Formats O (pf.writeAll buf) := by
  refine wp_mono (printWriteAll_calls pf buf) ?_
  intro o h hh e he level fmt hc
  obtain ⟨fmt', h1, h2, _⟩ := hh e he
  rw [hc] at h1
  simp only [Sys.printf.injEq] at h1
  obtain ⟨_, rfl⟩ := h1
  rcases hb with hb | hb
  · exact Or.inl fun hm => hb (h2.subset hm)
  · exact Or.inr (hb _ h2)

theorem formats_writeLine (pf : PrintFacility) {l : Bytes} (htag : (37 : UInt8) ∉ pf.tag)
    (hb : (37 : UInt8) ∉ l ∨ ∀ f, f <:+ l → O f) : Formats O (pf.writeLine l) :=
  allEv_bind (formats_writeAll pf (Or.inl htag)) fun _ => allEv_ite
    (allEv_bind (formats_writeAll pf hb) fun _ => allEv_ite (formats_writeAll pf (Or.inl (by decide)))
      (allEv_pure _)) (allEv_pure _)

theorem formats_writeError (hasPrintf : Bool) {l : Bytes}
    (hb : (37 : UInt8) ∉ l ∨ ∀ f, f <:+ l → O f) :
    Formats O ((PrintFacility.stderr hasPrintf).writeError l none) := by
  rw [writeError_none]
  exact allEv_bind (formats_writeAll _ (Or.inl (by decide))) fun _ => allEv_ite
    (allEv_bind (formats_writeLine _ (by show (37 : UInt8) ∉ b! "sudo_pair: "; decide) hb)
      fun _ => allEv_ite (allEv_pure _) (allEv_pure _)) (allEv_pure _)

theorem formats_tail {α : Type} {m : M α} (P : Sys → Prop) (hm : ∀ o h, Runs m o h → ∀ e ∈ h, P e.call)
    (hP : ∀ level fmt, ¬ P (.printf level fmt)) : Formats O m := by
  refine wp_iff_runs.2 ?_
  intro o h hr e he level fmt hc
  have := hm o h hr e he
  rw [hc] at this
  exact absurd this (hP _ _)

theorem formats_socketWriteAll (fd : Nat) (buf : Bytes) : Formats O (Socket.writeAll fd buf) :=
  formats_tail (WriteCall fd) (fun _ _ hr => (socketWriteAll_runs hr).calls) (by simp [WriteCall])

theorem formats_socketClose (fd : Nat) : Formats O (Socket.close fd) :=
  allEv_bind (allEv_sys (by simp)) fun _ => allEv_pure _

theorem formats_finish (env : IoEnv) (r : Except ErrorKind Unit) : Formats O (Core.finish env r) := by
  rcases r with e | ⟨⟨⟩⟩
  · exact allEv_bind (formats_writeError _ (Or.inl (errorKind_plain e).1)) fun _ => allEv_pure _
  · exact allEv_pure _

theorem formats_logOutput (p : Pair) (buf : Bytes) : Formats O (p.logOutput buf) := by
  unfold Pair.logOutput
  split
  · exact allEv_pure _
  · exact allEv_bind (formats_socketWriteAll _ _) fun b => allEv_ite (allEv_pure _) (allEv_pure _)

theorem formats_localPairPrompt (p : Pair) (spec : TemplateSpec) (hO : ∀ t f, f <:+ spec.expand t → O f) :
    Formats O (p.localPairPrompt spec) := by
  refine allEv_bind (allEv_sys (by simp)) fun t => allEv_bind ?_ fun _ => allEv_ite (allEv_pure _)
    (allEv_bind (formats_writeAll _ (Or.inr (hO _))) fun _ => allEv_pure _)
  unfold Pair.ttyPrompt
  split
  · exact allEv_pure _
  · exact allEv_bind (allEv_sys (by simp)) fun b => allEv_ite
      (allEv_writeAll (fun b => allEv_sys (by simp)) _) (allEv_pure _)

theorem formats_pairOpen (rt : Rt) (env : IoEnv)
    (hO : ∀ t f, f <:+ (Pair.ofEnv env).templateSpec.expand t → O f) : Formats O (Pair.open rt env) := by
  refine allEv_bind (allEv_ofOption _) fun _ => allEv_ite (allEv_pure _) (allEv_ite (allEv_pure _)
    (allEv_bind (formats_localPairPrompt _ _ hO) fun _ => allEv_bind ?_ fun r => ?_))
  · refine allEv_bind (allEv_ofOption _) fun mode => allEv_bind ?_ fun c => ?_
    · exact formats_tail SetupCall (fun _ _ hr => sockOpen_setup (open'_runs hr)) (by simp [SetupCall])
    · rcases c with _ | c <;> exact allEv_pure _
  · rcases r with e | fd
    · exact allEv_pure _
    · refine allEv_onUnwind (allEv_bind ?_ fun r => ?_) (formats_socketClose _)
      · exact formats_tail (PromptCall fd) (fun _ _ hr => promptCall_of (remotePairPrompt_runs hr))
          (by simp [PromptCall])
      · rcases r with e | ⟨⟨⟩⟩
        · exact allEv_bind (formats_socketClose _) fun _ => allEv_pure _
        · exact allEv_pure _

theorem formats_coreOpen (rt : Rt) (a : OpenArgs) (st : State)
    (hO1 : ∀ e, IoEnv.new rt a = some (.error e) → ∀ f, f <:+ e.display → O f)
    (hO2 : ∀ env0, IoEnv.new rt a = some (.ok env0) →
      ∀ t f, f <:+ (Pair.ofEnv (effEnv st env0)).templateSpec.expand t → O f) :
    Formats O (Core.open rt a st) := by
  have hmk : wp (Core.makeEnv rt a) (fun o h => (∀ e ∈ h, ∀ level fmt, e.call = .printf level fmt →
      (37 : UInt8) ∉ fmt ∨ O fmt) ∧ ∀ env, o = .ok (.ok env) → IoEnv.new rt a = some (.ok env)) := by
    refine wp_iff_runs.2 ?_
    intro o h hr
    unfold Core.makeEnv at hr
    inv Runs.ofOption_bind hr with ⟨h1, rfl, rfl⟩ | ⟨x, h1, hr⟩
    · exact ⟨by simp, by simp⟩
    · rcases x with e | env0
      · refine ⟨?_, ?_⟩
        · exact AllEv.of_runs (P := fun e => ∀ level fmt, e.call = .printf level fmt → (37 : UInt8) ∉ fmt ∨ O fmt)
            (allEv_bind (formats_writeError _ (Or.inr (hO1 e h1))) fun _ => allEv_pure _) hr
        · inv Runs.bind hr with ⟨b, h2, h3, k1, hr, rfl⟩ | ⟨rfl, _⟩ | ⟨rfl, _⟩
          · obtain ⟨rfl, _⟩ := hr.pure; simp
          · simp
          · simp
      · obtain ⟨rfl, rfl⟩ := hr.pure
        exact ⟨by simp, fun env he => by simp only [Out.ok.injEq, Except.ok.injEq] at he; rw [h1, he]⟩
  have cont : ∀ {α : Type} {m : M α} {h : Hist}, (∀ e ∈ h, ∀ level fmt, Ev.call e = .printf level fmt →
      (37 : UInt8) ∉ fmt ∨ O fmt) → Formats O m → wp m (fun _ h' => ∀ e ∈ h ++ h', ∀ level fmt,
        Ev.call e = .printf level fmt → (37 : UInt8) ∉ fmt ∨ O fmt) :=
    fun h1 h2 => wp_mono h2 fun _ _ hh => List.forall_mem_append.2 ⟨h1, hh⟩
  refine wp_bind (wp_catchUnwind (wp_mono hmk ?_))
  rintro ((e | env) | _ | _) h ⟨hh, hnew⟩
  · exact cont hh (allEv_pure _)
  · refine cont hh (allEv_bind (allEv_catchUnwind (allEv_ite (allEv_pure _)
      (allEv_bind (formats_pairOpen rt _ (hO2 env (hnew env rfl))) fun r => ?_))) fun r => ?_)
    · rcases r with e | p
      · exact allEv_bind (formats_writeError _ (Or.inl (errorKind_plain e).1)) fun _ => allEv_pure _
      · exact allEv_pure _
    · rcases r with _ | e | p
      · exact allEv_pure _
      · exact allEv_pure _
      · dsimp only
        cases st.plugin with
        | none => exact allEv_pure _
        | some q =>
          refine allEv_bind ?_ fun _ => allEv_pure _
          unfold Pair.drop
          split
          · exact allEv_pure _
          · exact formats_socketClose _
  · exact cont hh (allEv_pure _)
  · exact hh

end

/-- The texts with percent signs that a callback may pass to printf as format string: (ends of) the
description of what is wrong with the arguments of `open`, and (ends of) the expansion of the local
prompt. -/
def Exposed (rt : Rt) (c : Core.Call) (st : State) (fmt : Bytes) : Prop :=
  ∃ a, c = .open a ∧
    ((∃ e, IoEnv.new rt a = some (.error e) ∧ fmt <:+ e.display) ∨
     ∃ env0 template, IoEnv.new rt a = some (.ok env0) ∧
       fmt <:+ (Pair.ofEnv (effEnv st env0)).templateSpec.expand template)

/-- C40.  Every format string that any callback ever passes to printf is free of percent signs (hence
shown verbatim), except when `open` describes unusable arguments or shows the local prompt. -/
theorem C40_formats {rt c st o h level fmt r} (hr : Runs (Core.step rt c st) o h)
    (he : (⟨.printf level fmt, r⟩ : Ev) ∈ h) : (37 : UInt8) ∉ fmt ∨ Exposed rt c st fmt := by
  have key : Formats (Exposed rt c st) (Core.step rt c st) := by
    cases c with
    | «open» a =>
      exact formats_coreOpen rt a st (fun e he f hf => ⟨a, rfl, Or.inl ⟨e, he, hf⟩⟩)
        (fun env0 he t f hf => ⟨a, rfl, Or.inr ⟨env0, t, he, hf⟩⟩)
    | close =>
      refine allEv_bind ?_ fun _ => allEv_pure _
      unfold Core.close
      cases st.plugin with
      | none => exact allEv_bind (allEv_pure _) fun _ => allEv_pure _
      | some p =>
        refine allEv_bind ?_ fun _ => allEv_pure _
        unfold Pair.close
        split
        · exact allEv_pure _
        · exact allEv_bind (formats_socketClose _) fun _ => formats_socketClose _
    | showVersion =>
      refine allEv_bind (allEv_bind (allEv_catchUnwind ?_) ?_) fun _ => allEv_pure _
      · refine allEv_bind (allEv_ofOption _) fun env => allEv_bind ?_ fun _ => allEv_pure _
        have : ∀ l : List Bytes, (∀ x ∈ l, (37 : UInt8) ∉ x) →
            Formats (Exposed rt .showVersion st) (Core.writePieces (PrintFacility.stdout env.hasPrintf) l) := by
          intro l
          induction l with
          | nil => intro _; exact allEv_pure _
          | cons x l ih =>
            intro hx
            exact allEv_bind (formats_writeAll _ (Or.inl (hx x (by simp)))) fun _ => allEv_ite
              (ih fun y hy => hx y (by simp [hy])) (allEv_pure _)
        exact this _ (by decide)
      · rintro (_ | ⟨⟨⟩⟩) <;> exact allEv_pure _
    | log f buf =>
      refine allEv_bind (allEv_bind (allEv_catchUnwind ?_) fun _ => allEv_pure _) fun _ => allEv_pure _
      refine allEv_bind (allEv_ofOption _) fun env => allEv_bind (allEv_ofOption _) fun p =>
        allEv_ite (allEv_pure _) (allEv_bind ?_ fun _ => formats_finish _ _)
      cases f
      · exact allEv_pure _
      · exact formats_logOutput _ _
      · exact allEv_bind (allEv_ofOption _) fun _ => allEv_ite (allEv_pure _) (allEv_pure _)
      · exact formats_logOutput _ _
      · exact formats_logOutput _ _
    | changeWinsize l c =>
      refine allEv_bind (allEv_bind (allEv_catchUnwind ?_) fun _ => allEv_pure _) fun _ => allEv_pure _
      exact allEv_bind (allEv_ofOption _) fun env => allEv_bind (allEv_ofOption _) fun p =>
        allEv_bind (formats_logOutput _ _) fun _ => formats_finish _ _
  exact key.of_runs hr _ he level fmt rfl

/-- The user prompt shows the command line, the terminal cannot be opened, printf works. -/
def showsCommand : Answer
  | .readFile _ => some (b! "about to run: %C\n")
  | .ttyOpen _ => false
  | c => coop 121 c

/-- The user runs `/bin/ls %n%n%n`. -/
def formatArgs : OpenArgs := { sampleArgs with argv := [b! "ls", b! "%n%n%n"] }

/-- A printf that counts what it prints, for the two format strings it is given below. -/
def percentPrintf : Sched := [fun | .printf _ _ => .wrote 3 | c => coop 121 c, coop 121]

/-- C40: the full statement fails.  `%%ab` is shown as `%abb`: `%%` prints one byte, so one byte too few
is reported and the last one is sent again.  And with a prompt containing `%C` and no terminal, the
command line reaches printf as format string with undefined behaviour. -/
theorem C40_counterexample :
    ¬ C40Full ∧
    ((Core.open sampleRt formatArgs Core.init (List.replicate 60 showsCommand)).2.1.map Ev.call)[2]? =
      some (.printf 3 (b! "about to run: sudo ls %n%n%n\n")) ∧
    render (b! "about to run: sudo ls %n%n%n\n") = none := by
  refine ⟨fun hf => ?_, by decide +kernel, by decide +kernel⟩
  have := hf (PrintFacility.stderr true) (b! "%%ab")
    ((PrintFacility.stderr true).writeAll (b! "%%ab") percentPrintf).2.1 (by decide)
    ⟨percentPrintf, by decide +kernel, rfl⟩ ?_
  · revert this; decide +kernel
  · have h2 : ((PrintFacility.stderr true).writeAll (b! "%%ab") percentPrintf).2.1 =
        [⟨.printf 3 (b! "%%ab"), .wrote 3⟩, ⟨.printf 3 (b! "b"), .wrote 1⟩] := rfl
    rw [h2]
    intro level fmt n t hm hr
    simp only [List.mem_cons, Ev.mk.injEq, Sys.printf.injEq, List.not_mem_nil, or_false] at hm
    rcases hm with ⟨⟨rfl, rfl⟩, hn⟩ | ⟨⟨rfl, rfl⟩, hn⟩
    · have hn := eq_of_heq hn
      simp only [WriteRes.wrote.injEq] at hn
      have : render (b! "%%ab") = some (b! "%ab") := by decide +kernel
      rw [this] at hr
      cases hr; rw [hn]; decide
    · have hn := eq_of_heq hn
      simp only [WriteRes.wrote.injEq] at hn
      have : render (b! "b") = some (b! "b") := by decide +kernel
      rw [this] at hr
      cases hr; rw [hn]; decide

end SudoPair
