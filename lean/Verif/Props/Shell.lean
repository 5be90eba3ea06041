import Verif.Spec.Shell
import Verif.Props.Prompts
import Verif.Props.Extras
/-
C86: the command that the user is told to pass on, as a shell reads it.
-/
namespace SudoPair
open Spec Approve

theorem words_plain {t rest : Bytes} (ht : ∀ b ∈ t, PlainChar b) (w : Bytes) (q : Bool) :
    wordsFrom (some w) q (t ++ rest) = wordsFrom (some (w ++ t)) q rest := by
  induction t generalizing w with
  | nil => simp
  | cons b t ih =>
    have hb := ht b (by simp)
    have h1 : b ≠ 39 := by rintro rfl; revert hb; decide
    have h2 : b ≠ 32 := by rintro rfl; revert hb; decide
    rw [List.cons_append, wordsFrom, if_neg h1, if_neg (fun h => h2 h.1), ih (fun c hc => ht c (by simp [hc]))]
    simp

theorem words_first {t rest : Bytes} (ht : PlainWord t) (q : Bool) :
    wordsFrom none q (t ++ rest) = wordsFrom (some t) q rest := by
  obtain ⟨hne, ht⟩ := ht
  rcases t with _ | ⟨b, t⟩
  · exact absurd rfl hne
  · have hb := ht b (by simp)
    have h1 : b ≠ 39 := by rintro rfl; revert hb; decide
    have h2 : b ≠ 32 := by rintro rfl; revert hb; decide
    rw [List.cons_append, wordsFrom, if_neg h1, if_neg (fun h => h2 h.1), words_plain (fun c hc => ht c (by simp [hc]))]
    simp

theorem words_blank (w rest : Bytes) : wordsFrom (some w) false (32 :: rest) = w :: wordsFrom none false rest := by
  simp [wordsFrom]

theorem words_blank_quoted (w rest : Bytes) : wordsFrom (some w) true (32 :: rest) = wordsFrom (some (w ++ [32])) true rest := by
  simp [wordsFrom]

theorem words_open (rest : Bytes) : wordsFrom none false (39 :: rest) = wordsFrom (some []) true rest := by
  simp [wordsFrom]

theorem words_close (w : Bytes) : wordsFrom (some w) true [39] = [w] := by
  simp [wordsFrom]

theorem plain_digit {b : UInt8} (h : IsDigit b) : PlainChar b := by
  unfold IsDigit at h
  unfold PlainChar
  simp only [UInt8.le_iff_toNat_le]
  simp
  omega

theorem plain_decNat (n : Nat) : PlainWord (decNat n) :=
  ⟨decNat_ne_nil n, fun _ h => plain_digit (decNat_digit h)⟩

theorem plain_decInt (i : Int) : PlainWord (decInt i) := by
  cases i with
  | ofNat n => exact plain_decNat n
  | negSucc n =>
    refine ⟨by simp [decInt], fun b hb => ?_⟩
    change b ∈ (45 : UInt8) :: decNat (n + 1) at hb
    rcases List.mem_cons.1 hb with rfl | hb
    · decide
    · exact (plain_decNat _).2 b hb

theorem plain_decimal (n : Nat) : PlainWord (decimal n) := by rw [decimal_fun]; exact plain_decNat n
theorem plain_decimalInt (i : Int) : PlainWord (decimalInt i) := by rw [decimalInt_fun]; exact plain_decInt i

/-- The command in the built-in prompt for the user. -/
def userCommand (p : Pair) : Bytes :=
  p.options.binaryPath ++ b! " " ++ decimal p.env.userInfo.uid ++ b! " " ++ decimalInt p.env.userInfo.pid

/-- C86: the built-in prompt for the user is one line, a command; a shell runs the approval script with two arguments for
it, the numbers of the session (if the path of the script has no characters of a meaning of their own to the shell). -/
theorem C86_default (p : Pair) (hb : PlainWord p.options.binaryPath) :
    p.templateSpec.expand defaultUserPrompt = userCommand p ++ b! "\n" ∧ (10 : UInt8) ∉ userCommand p ∧
    shellWords (userCommand p) = [p.options.binaryPath, decimal p.env.userInfo.uid, decimalInt p.env.userInfo.pid] := by
  refine ⟨C61_default_user p, ?_, ?_⟩
  · have no : ∀ {t : Bytes}, PlainWord t → (10 : UInt8) ∉ t := fun h hm => absurd (h.2 _ hm) (by decide)
    simp only [userCommand, List.mem_append, not_or]
    exact ⟨⟨⟨⟨no hb, by decide⟩, no (plain_decimal _)⟩, by decide⟩, no (plain_decimalInt _)⟩
  · unfold shellWords userCommand
    simp only [List.append_assoc]
    rw [words_first hb]
    show wordsFrom _ false (32 :: (decimal _ ++ (32 :: decimalInt _))) = _
    rw [words_blank, words_first (plain_decimal _), words_blank, ← List.append_nil (decimalInt _), words_first (plain_decimalInt _), List.append_nil]
    rfl

/-- C86: and that connects to the session, if somebody else runs it who may write to the socket. -/
theorem C86_connects {arith : Arith} {su ans} {p : Pair} {uid : Nat} (hb : PlainWord p.options.binaryPath)
    (ha : ReadsDecimals arith)
    (hd : p.options.socketDir = b! "/var/run/sudo_pair") (hu : p.env.userInfo.uid < 2 ^ 32)
    (hp : InRange p.env.userInfo.pid) (huid : uid < 2 ^ 32) (hr : RunBy uid su ans) (hne : uid ≠ p.env.userInfo.uid)
    (hok : ∀ c, (ans c).isSome = true)
    (h1 : ∀ q, ∃ k, InRange k ∧ ans (.statUid q) = some (decimalInt k))
    (h2 : ∀ q, ∃ k, InRange k ∧ ans (.statGid q) = some (decimalInt k)) :
    ∃ args, shellWords (userCommand p) = p.options.binaryPath :: args ∧ .socat p.socketPath ∈ script arith ans su args := by
  refine ⟨_, (C86_default p hb).2.2, ?_⟩
  have := C57_connects ha hd hu hp huid hr hne hok h1 h2
  rw [expand_uid, expand_pid] at this
  rwa [decimal_fun, decimalInt_fun]

theorem words_docker (rest : Bytes) : wordsFrom none false (b! "docker exec -it " ++ rest) =
    b! "docker" :: b! "exec" :: b! "-it" :: wordsFrom none false rest := by
  simp [wordsFrom]

/-- The command in the shipped prompt for the user. -/
def shippedCommand (p : Pair) : Bytes := b! "docker exec -it " ++ p.env.userInfo.host ++ b! " '" ++ userCommand p ++ b! "'"

/-- C86: the command in the shipped prompt, on a line of its own, hands a single word to `docker exec` after the name of
the container: the path of the script and the numbers together.  That is not the path of the script. -/
theorem C86_shipped (p : Pair) (hb : PlainWord p.options.binaryPath) (hh : PlainWord p.env.userInfo.host) :
    (∃ before after, p.templateSpec.expand sampleUserPrompt = before ++ b! "\n    " ++ shippedCommand p ++ b! "\n" ++ after) ∧
    shellWords (shippedCommand p) = [b! "docker", b! "exec", b! "-it", p.env.userInfo.host, userCommand p] ∧
    userCommand p ≠ p.options.binaryPath := by
  refine ⟨⟨sampleUserIntro.take 141, sampleUserOutro.drop 2, ?_⟩, ?_, ?_⟩
  · rw [C61_sample_user]
    have e1 : sampleUserIntro = sampleUserIntro.take 141 ++ b! "\n    " ++ b! "docker exec -it " := by decide +kernel
    have e2 : sampleUserOutro = b! "'" ++ b! "\n" ++ sampleUserOutro.drop 2 := by decide +kernel
    conv => lhs; rw [e1, e2]
    unfold shippedCommand userCommand
    simp only [List.append_assoc]
  · unfold shippedCommand shellWords userCommand
    simp only [List.append_assoc]
    rw [words_docker, words_first hh]
    show _ :: _ :: _ :: wordsFrom _ false (32 :: 39 :: (_ ++ 32 :: (_ ++ 32 :: (_ ++ [39])))) = _
    rw [words_blank, words_open, words_plain hb.2, words_blank_quoted, words_plain (plain_decimal _).2,
      words_blank_quoted, words_plain (plain_decimalInt _).2, words_close]
    simp
  · intro h
    have := congrArg List.length h
    simp [userCommand] at this

/-! ### Concrete cases -/

/-- Non-vacuity: the sample session. -/
example : PlainWord samplePair.options.binaryPath ∧ PlainWord samplePair.env.userInfo.host ∧
    shellWords (userCommand samplePair) = [b! "/usr/bin/sudo_approve", b! "1000", b! "42"] ∧
    shellWords (shippedCommand samplePair) =
      [b! "docker", b! "exec", b! "-it", b! "h", b! "/usr/bin/sudo_approve 1000 42"] := by
  unfold PlainWord
  decide +kernel

end SudoPair
