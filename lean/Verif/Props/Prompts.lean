import Verif.Props.Variables
import Verif.Props.Path
import Verif.Props.Exempt
import Verif.Model.SamplePrompts
/-
The built-in prompts and the shipped prompt files: C61.
-/
namespace SudoPair
open Spec

theorem expands_text {val : UInt8 → Option Bytes} {s : Bytes} (h : (37 : UInt8) ∉ s) :
    Expands 37 val s s := by
  induction s with
  | nil => exact .nil
  | cons b s ih =>
    exact .lit (fun hb => h (by simp [hb])) (ih (fun hm => h (List.mem_cons_of_mem _ hm)))

theorem expands_var {val : UInt8 → Option Bytes} {s rest x r : Bytes} {k : UInt8} (h : (37 : UInt8) ∉ s)
    (hk : val k = some x) (hr : Expands 37 val rest r) :
    Expands 37 val (s ++ 37 :: k :: rest) (s ++ (x ++ r)) := by
  induction s with
  | nil => exact .sub (x := x) hk hr
  | cons b s ih =>
    exact .lit (fun hb => h (by simp [hb])) (ih (fun hm => h (List.mem_cons_of_mem _ hm)))

/-- C61: the built-in prompt for the pair shows user, host, working directory and the whole command. -/
theorem C61_default_pair (p : Pair) : p.templateSpec.expand defaultPairPrompt =
    p.env.userInfo.user ++ b! "@" ++ p.env.userInfo.host ++ b! ":" ++ commandDir p.env ++ b! "$ " ++
    commandText p.env ++ b! "\ny/n? [n]: " := by
  rw [C28_variables]
  have := expands_var (val := promptVars p) (s := []) (k := 85) (by decide) rfl
    (expands_var (s := b! "@") (k := 104) (by decide) rfl
    (expands_var (s := b! ":") (k := 100) (by decide) rfl
    (expands_var (s := b! "$ ") (k := 67) (by decide) rfl
    (expands_text (s := b! "\ny/n? [n]: ") (by decide)))))
  simpa [defaultPairPrompt] using this

/-- C61: the built-in prompt for the user shows the command that approves the session. -/
theorem C61_default_user (p : Pair) : p.templateSpec.expand defaultUserPrompt =
    p.options.binaryPath ++ b! " " ++ decimal p.env.userInfo.uid ++ b! " " ++ decimalInt p.env.userInfo.pid ++
    b! "\n" := by
  rw [C28_variables]
  have := expands_var (val := promptVars p) (s := []) (k := 66) (by decide) rfl
    (expands_var (s := b! " ") (k := 117) (by decide) rfl
    (expands_var (s := b! " ") (k := 112) (by decide) rfl
    (expands_text (s := b! "\n") (by decide))))
  simpa [defaultUserPrompt] using this

/-- What the shipped prompt for the pair says before and after the description of the session. -/
def samplePairIntro : Bytes := samplePairPrompt.take 86
def samplePairOutro : Bytes := samplePairPrompt.drop 140

/-- C61: the shipped prompt for the pair. -/
theorem C61_sample_pair (p : Pair) : p.templateSpec.expand samplePairPrompt =
    samplePairIntro ++ p.env.userInfo.user ++ b! "\x1b[0m@\x1b[1m\x1b[31m" ++ p.env.userInfo.host ++
    b! "\x1b[0m:\x1b[1m\x1b[34m" ++ commandDir p.env ++ b! "\x1b[0m \x1b[31m$\x1b[0m > " ++ commandText p.env ++
    samplePairOutro := by
  rw [C28_variables]
  have := expands_var (val := promptVars p) (s := samplePairIntro) (k := 85) (by decide +kernel) rfl
    (expands_var (s := b! "\x1b[0m@\x1b[1m\x1b[31m") (k := 104) (by decide) rfl
    (expands_var (s := b! "\x1b[0m:\x1b[1m\x1b[34m") (k := 100) (by decide) rfl
    (expands_var (s := b! "\x1b[0m \x1b[31m$\x1b[0m > ") (k := 67) (by decide) rfl
    (expands_text (s := samplePairOutro) (by decide +kernel)))))
  have e : samplePairPrompt = samplePairIntro ++ 37 :: 85 :: (b! "\x1b[0m@\x1b[1m\x1b[31m" ++ 37 :: 104 ::
      (b! "\x1b[0m:\x1b[1m\x1b[34m" ++ 37 :: 100 :: (b! "\x1b[0m \x1b[31m$\x1b[0m > " ++ 37 :: 67 ::
      samplePairOutro))) := by decide +kernel
  rw [e]
  simpa only [List.append_assoc] using this

/-- What the shipped prompt for the user says before and after the command. -/
def sampleUserIntro : Bytes := sampleUserPrompt.take 162
def sampleUserOutro : Bytes := sampleUserPrompt.drop 174

/-- C61: the shipped prompt for the user. -/
theorem C61_sample_user (p : Pair) : p.templateSpec.expand sampleUserPrompt =
    sampleUserIntro ++ p.env.userInfo.host ++ b! " '" ++ p.options.binaryPath ++ b! " " ++
    decimal p.env.userInfo.uid ++ b! " " ++ decimalInt p.env.userInfo.pid ++ sampleUserOutro := by
  rw [C28_variables]
  have := expands_var (val := promptVars p) (s := sampleUserIntro) (k := 104) (by decide +kernel) rfl
    (expands_var (s := b! " '") (k := 66) (by decide) rfl
    (expands_var (s := b! " ") (k := 117) (by decide) rfl
    (expands_var (s := b! " ") (k := 112) (by decide) rfl
    (expands_text (s := sampleUserOutro) (by decide +kernel)))))
  have e : sampleUserPrompt = sampleUserIntro ++ 37 :: 104 :: (b! " '" ++ 37 :: 66 ::
      (b! " " ++ 37 :: 117 :: (b! " " ++ 37 :: 112 :: sampleUserOutro))) := by decide +kernel
  rw [e]
  simpa only [List.append_assoc] using this

theorem decInt_no_space (i : Int) : (32 : UInt8) ∉ decInt i := by
  cases i with
  | ofNat n => exact decNat_no (by unfold IsDigit; decide) n
  | negSucc n =>
    show (32 : UInt8) ∉ (45 : UInt8) :: decNat (n + 1)
    rw [List.mem_cons, not_or]
    exact ⟨by decide, decNat_no (by unfold IsDigit; decide) _⟩

/-- Texts with the same separator: the last field is determined. -/
theorem last_field {a a' b b' : Bytes} {s : UInt8} (hb : s ∉ b) (hb' : s ∉ b')
    (h : a ++ s :: b = a' ++ s :: b') : a = a' ∧ b = b' := by
  have hr := congrArg List.reverse h
  simp only [List.reverse_append, List.reverse_cons, List.append_assoc, List.singleton_append] at hr
  have hb2 : s ∉ b.reverse := by simpa using hb
  have hb2' : s ∉ b'.reverse := by simpa using hb'
  rcases List.append_eq_append_iff.1 hr with ⟨c, h1, h2⟩ | ⟨c, h1, h2⟩
  · rcases c with _ | ⟨y, c⟩
    · simp only [List.append_nil] at h1
      simp only [List.nil_append, List.cons.injEq, true_and] at h2
      exact ⟨List.reverse_inj.1 h2, (List.reverse_inj.1 h1).symm⟩
    · simp only [List.cons_append, List.cons.injEq] at h2
      exact absurd (by rw [h1, ← h2.1]; simp) hb2'
  · rcases c with _ | ⟨y, c⟩
    · simp only [List.append_nil] at h1
      simp only [List.nil_append, List.cons.injEq, true_and] at h2
      exact ⟨(List.reverse_inj.1 h2).symm, List.reverse_inj.1 h1⟩
    · simp only [List.cons_append, List.cons.injEq] at h2
      exact absurd (by rw [h1, ← h2.1]; simp) hb2

/-- C61: the built-in prompt for the user identifies the session: if two sessions show the same, they have
the same uid and pid, and so, with the same `socket_dir`, wait on the same socket. -/
theorem C61_identifies (p q : Pair)
    (h : p.templateSpec.expand defaultUserPrompt = q.templateSpec.expand defaultUserPrompt) :
    p.env.userInfo.uid = q.env.userInfo.uid ∧ p.env.userInfo.pid = q.env.userInfo.pid ∧
    p.options.binaryPath = q.options.binaryPath ∧
    (p.options.socketDir = q.options.socketDir → p.socketPath = q.socketPath) := by
  rw [C61_default_user, C61_default_user, decimal_fun, decimalInt_fun] at h
  have h := (List.append_left_inj _).1 h
  have e : ∀ (a b c : Bytes), a ++ [32] ++ b ++ [32] ++ c = (a ++ 32 :: b) ++ 32 :: c := by simp
  rw [e, e] at h
  obtain ⟨h, hpid⟩ := last_field (decInt_no_space _) (decInt_no_space _) h
  obtain ⟨hbin, huid⟩ := last_field (decNat_no (by unfold IsDigit; decide) _)
    (decNat_no (by unfold IsDigit; decide) _) h
  have huid := decNat_injective huid
  have hpid := decInt_injective hpid
  refine ⟨huid, hpid, hbin, fun hd => ?_⟩
  unfold Pair.socketPath
  rw [hd, huid, hpid]

/-- The sample session's prompts. -/
example : samplePair.templateSpec.expand defaultUserPrompt = b! "/usr/bin/sudo_approve 1000 42\n" ∧
    samplePair.templateSpec.expand defaultPairPrompt = b! "u@h:/home/u$ sudo ls -l\ny/n? [n]: " := by
  rw [C61_default_user, C61_default_pair]; decide +kernel

end SudoPair
