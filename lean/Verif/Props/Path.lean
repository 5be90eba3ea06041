import Verif.Lemmas.Path
import Verif.Lemmas.Utf8
import Verif.Lemmas.Text
import Verif.Spec.Environment
import Verif.Model.Pair
/-
C47, C17 and the path part of C16 and C28.
-/
namespace SudoPair
open Spec

theorem path_eq_iff (p q : Bytes) : Path.eq p q = true ↔ SamePath p q := by
  unfold Path.eq
  rw [decide_eq_true_eq]
  constructor
  · intro h
    have h1 := Path.same_spell p
    have h2 := Path.same_spell q
    rw [h] at h1
    exact h1.trans h2.symm
  · exact Path.components_same

/-- C47: the approval-command exemption applies exactly if the command and `binary_path` are spellings
of each other: equal up to redundant slashes and `.` components (`..` and symlinks are not
resolved). -/
theorem C47_same_path (p : Pair) :
    p.approvalCommand = true ↔ SamePath p.env.commandInfo.command p.options.binaryPath :=
  path_eq_iff _ _

/-- C47: the relation is not trivial: `..` is not resolved, letter case matters, a longer path is
different; while doubled slashes and dots are ignored. -/
theorem C47_examples :
    SamePath (b! "/usr//bin/./sudo_approve/") (b! "/usr/bin/sudo_approve") ∧
    ¬ SamePath (b! "/usr/lib/../bin/sudo_approve") (b! "/usr/bin/sudo_approve") ∧
    ¬ SamePath (b! "/usr/bin/Sudo_approve") (b! "/usr/bin/sudo_approve") ∧
    ¬ SamePath (b! "usr/bin/sudo_approve") (b! "/usr/bin/sudo_approve") ∧
    ¬ SamePath (b! "./sudo_approve") (b! "sudo_approve") := by
  simp only [← path_eq_iff]
  decide

/-- Only the empty path has no components. -/
theorem path_eq_nil (p : Bytes) : Path.eq p [] = true ↔ p = [] := by
  constructor
  · intro h
    unfold Path.eq at h
    rw [decide_eq_true_eq] at h
    have h0 : Path.components ([] : Bytes) = [] := by decide
    rw [h0] at h
    cases hs : splitOn 47 p with
    | nil => exact absurd hs (splitOn_ne_nil _ _)
    | cons f r =>
      rw [Path.components_eq, List.append_eq_nil_iff] at h
      obtain ⟨h1, h2⟩ := h
      have hp := (splitOn_eq_cons.1 hs).1
      unfold Path.pre at h1
      split at h1
      · simp at h1
      · rename_i hr
        split at h1
        · simp at h1
        · rename_i hc
          unfold Path.body at h2
          rw [hs, List.filterMap_eq_nil_iff] at h2
          rcases Path.single_none (h2 f (by simp)) with rfl | rfl
          · cases r with
            | nil => simpa using hp
            | cons x r => exfalso; apply hr; rw [hp]; simp [Path.hasRoot]
          · exfalso; apply hc
            rw [Path.includeCur_iff, hp]
            cases r with
            | nil => left; rfl
            | cons x r => right; exact ⟨_, rfl⟩
  · rintro rfl; decide

/-! ### C17 -/

/-- The documented file name of a session's socket. -/
def socketName (uid : Nat) (pid : Int) : Bytes := decimal uid ++ b! "." ++ decimalInt pid ++ b! ".sock"

theorem socketName_eq (uid : Nat) (pid : Int) :
    socketName uid pid = decNat uid ++ b! "." ++ decInt pid ++ b! ".sock" := by
  rw [socketName, decimal_fun, decimalInt_fun]

theorem decInt_no_slash (i : Int) : (47 : UInt8) ∉ decInt i := by
  have hd : ∀ n, (47 : UInt8) ∉ decNat n := by
    intro n h
    have := decNat_digit h
    unfold IsDigit at this; revert this; decide
  cases i with
  | ofNat n => exact hd n
  | negSucc n =>
    simp only [decInt, List.mem_cons, not_or]
    exact ⟨by decide, hd _⟩

theorem decNat_no {b : UInt8} (hb : ¬ IsDigit b) (n : Nat) : b ∉ decNat n :=
  fun h => hb (decNat_digit h)

theorem socketName_no_slash (uid : Nat) (pid : Int) : (47 : UInt8) ∉ socketName uid pid := by
  rw [socketName_eq]
  simp only [List.mem_append, not_or]
  refine ⟨⟨⟨decNat_no (by unfold IsDigit; decide) uid, by decide⟩, decInt_no_slash pid⟩, by decide⟩

theorem socketName_head (uid : Nat) (pid : Int) : ∃ d, (socketName uid pid).head? = some d ∧ IsDigit d := by
  rw [socketName_eq]
  cases h : decNat uid with
  | nil => exact absurd h (decNat_ne_nil uid)
  | cons d ds => exact ⟨d, rfl, decNat_digit (n := uid) (by rw [h]; simp)⟩

theorem socketPath_join (p : Pair) : p.socketPath =
    Path.join p.options.socketDir (socketName p.env.userInfo.uid p.env.userInfo.pid) := by
  rw [socketName_eq]
  rfl

theorem socketPath_components (p : Pair) : Path.components p.socketPath =
    Path.components p.options.socketDir ++
      [.normal (socketName p.env.userInfo.uid p.env.userInfo.pid)] := by
  obtain ⟨d, hd, hd'⟩ := socketName_head p.env.userInfo.uid p.env.userInfo.pid
  rw [socketPath_join]
  refine Path.components_join _ (socketName _ _) (socketName_no_slash _ _) ?_ ?_
  · intro h; rw [h] at hd; simp at hd
  · rw [hd]; intro h; cases h; unfold IsDigit at hd'; revert hd'; decide

/-- The documented place of a session's socket: the file `<uid>.<pid>.sock` in the directory `dir`. A slash
is put between the two unless the directory already ends in one (or is empty, a relative path). -/
def socketFile (dir : Bytes) (uid : Nat) (pid : Int) : Bytes :=
  dir ++ (if dir = [] ∨ dir.getLast? = some 47 then [] else b! "/") ++ socketName uid pid

/-- The model's path is the documented one. -/
theorem socketPath_file (p : Pair) :
    p.socketPath = socketFile p.options.socketDir p.env.userInfo.uid p.env.userInfo.pid := by
  have hroot : Path.hasRoot (socketName p.env.userInfo.uid p.env.userInfo.pid) = false := by
    obtain ⟨c, hc, hc'⟩ := socketName_head p.env.userInfo.uid p.env.userInfo.pid
    unfold Path.hasRoot
    rw [hc]
    simp only [Option.some.injEq, decide_eq_false_iff_not]
    rintro rfl
    unfold IsDigit at hc'; revert hc'; decide
  rw [socketPath_join]
  unfold Path.join socketFile
  rw [hroot]
  simp only [Bool.false_eq_true, if_false]
  by_cases hne : p.options.socketDir = []
  · simp [hne]
  · by_cases hl : p.options.socketDir.getLast? = some 47 <;> simp [hne, hl]

theorem append_dot_inj {a a' b b' : Bytes} (ha : (46 : UInt8) ∉ a) (ha' : (46 : UInt8) ∉ a')
    (h : a ++ 46 :: b = a' ++ 46 :: b') : a = a' ∧ b = b' := by
  have h1 := splitOn_append_sep 46 a b
  have h2 := splitOn_append_sep 46 a' b'
  rw [splitOn_no_sep ha] at h1
  rw [splitOn_no_sep ha'] at h2
  rw [h, h2] at h1
  simp only [List.cons_append, List.nil_append, List.cons.injEq] at h1
  refine ⟨h1.1.symm, ?_⟩
  rw [h1.1] at h
  simpa using h

theorem socketName_injective {uid uid' : Nat} {pid pid' : Int}
    (h : socketName uid pid = socketName uid' pid') : uid = uid' ∧ pid = pid' := by
  rw [socketName_eq, socketName_eq] at h
  simp only [List.append_assoc, List.cons_append, List.nil_append] at h
  have hno := fun n => decNat_no (b := 46) (by unfold IsDigit; decide) n
  obtain ⟨h1, h2⟩ := append_dot_inj (hno uid) (hno uid') h
  refine ⟨decNat_injective h1, ?_⟩
  exact decInt_injective ((List.append_left_inj _).1 h2)

/-- C17: the socket path consists of the components of `socket_dir` followed by the single plain
component `<uid>.<pid>.sock`: it never escapes the directory. -/
theorem C17_path (p : Pair) :
    (∀ d, SamePath p.options.socketDir d → d ≠ [] → d.getLast? ≠ some 47 →
      SamePath p.socketPath
        (d ++ b! "/" ++ socketName p.env.userInfo.uid p.env.userInfo.pid)) ∧
    (47 : UInt8) ∉ socketName p.env.userInfo.uid p.env.userInfo.pid ∧
    (∃ c, (socketName p.env.userInfo.uid p.env.userInfo.pid).head? = some c ∧ IsDigit c) := by
  refine ⟨?_, socketName_no_slash _ _, socketName_head _ _⟩
  intro d hd hne hl
  rw [← path_eq_iff]
  unfold Path.eq
  rw [decide_eq_true_eq, socketPath_components, Path.components_same hd, List.append_assoc]
  simp only [List.singleton_append]
  obtain ⟨c, hc, hc'⟩ := socketName_head p.env.userInfo.uid p.env.userInfo.pid
  rw [Path.components_append, if_neg hne, Path.name_body (socketName_no_slash _ _)]
  · intro h; rw [h] at hc; simp at hc
  · intro h; rw [h] at hc; cases hc; unfold IsDigit at hc'; revert hc'; decide
  · intro h; rw [h] at hc; cases hc; unfold IsDigit at hc'; revert hc'; decide

/-- C17: in the usual case (non-empty `socket_dir` not ending in a slash) the path is literally
`<socket_dir>/<uid>.<pid>.sock`; with a trailing slash no second one is added. -/
theorem C17_literal (p : Pair) (hne : p.options.socketDir ≠ []) :
    p.socketPath = p.options.socketDir ++
      (if p.options.socketDir.getLast? = some 47 then [] else b! "/") ++
      socketName p.env.userInfo.uid p.env.userInfo.pid := by
  rw [socketPath_file]
  unfold socketFile
  simp only [hne, false_or]

/-- C17: two sessions with spellings of the same socket path have the same uid and pid (and the same
socket directory). -/
theorem C17_injective (p q : Pair) (h : SamePath p.socketPath q.socketPath) :
    p.env.userInfo.uid = q.env.userInfo.uid ∧ p.env.userInfo.pid = q.env.userInfo.pid ∧
      SamePath p.options.socketDir q.options.socketDir := by
  have h' := Path.components_same h
  rw [socketPath_components, socketPath_components] at h'
  obtain ⟨h1, h2⟩ := List.append_inj' h' rfl
  simp only [List.cons.injEq, Comp.normal.injEq, and_true] at h2
  obtain ⟨h3, h4⟩ := socketName_injective h2
  refine ⟨h3, h4, ?_⟩
  rw [← path_eq_iff]
  unfold Path.eq
  rw [decide_eq_true_eq, h1]

/-! ### C16, path part -/

/-- C16: the directory that `enforce_ownership` inspects is (a spelling of) `socket_dir`, the
directory in which the socket is created. -/
theorem C16_parent (p : Pair) : ∃ q, Path.parent p.socketPath = some q ∧
    SamePath q p.options.socketDir := by
  have hc := socketPath_components p
  cases h : Path.parent p.socketPath with
  | none =>
    exfalso
    rcases Path.parent_none h with h1 | h1 <;> rw [h1] at hc
    · simp at hc
    · cases hd : Path.components p.options.socketDir with
      | nil => rw [hd] at hc; simp at hc
      | cons x xs =>
        rw [hd] at hc
        simp at hc
  | some q =>
    refine ⟨q, rfl, ?_⟩
    obtain ⟨_, c, h1⟩ := Path.parent_some h
    rw [h1] at hc
    obtain ⟨h2, _⟩ := List.append_inj' hc rfl
    rw [← path_eq_iff]
    unfold Path.eq
    rw [decide_eq_true_eq, h2]

/-- What is inspected is the part of the socket path that names the directory. -/
theorem dirPart_socket (p : Pair) (d : Bytes) :
    DirPart p.socketPath p.options.socketDir d ↔ Path.parent p.socketPath = some d := by
  obtain ⟨q, h1, h2⟩ := C16_parent p
  have hq : DirPart p.socketPath p.options.socketDir q := by
    refine ⟨(Path.parent_some h1).1, h2, fun d' h3 h4 => Path.parent_shortest h1 h3 ?_⟩
    exact Path.components_same (.trans h4 (.symm h2))
  constructor
  · rintro ⟨k1, k2, k3⟩
    have e : d.length = q.length := Nat.le_antisymm (k3 q hq.1 hq.2.1) (hq.2.2 d k1 k2)
    obtain ⟨t, ht⟩ := k1
    obtain ⟨t', ht'⟩ := hq.1
    rw [h1, Option.some.injEq]
    exact (List.append_inj (ht'.trans ht.symm) e.symm).1
  · intro h
    rw [h1, Option.some.injEq] at h
    subst h
    exact hq

/-- The part that names the directory, for a directory written with superfluous characters. -/
example : DirPart (b! "/run/./pair//1.2.sock") (b! "/run/pair/") (b! "/run/./pair") := by
  refine ⟨⟨b! "//1.2.sock", rfl⟩, ?_, ?_⟩
  · exact .trans (.dot (b! "/run") (b! "pair")) (.symm (.slashEnd (b! "/run/pair") (by decide)))
  · intro d' h1 h2
    exact Path.parent_shortest (p := b! "/run/./pair//1.2.sock") (by decide +kernel) h1
      ((Path.components_same h2).trans (by decide +kernel))

/-! ### C28, `%b` -/

theorem normal_name {p n : Bytes} (h : .normal n ∈ Path.components p) :
    (47 : UInt8) ∉ n ∧ n ≠ [] ∧ n ≠ b! "." ∧ n ≠ b! ".." := by
  rw [Path.components_eq, List.mem_append] at h
  rcases h with h | h
  · unfold Path.pre at h
    split at h
    · simp at h
    · split at h <;> simp at h
  · unfold Path.body at h
    obtain ⟨s, hs, hn⟩ := List.mem_filterMap.1 h
    have hs' := Path.single_name hn
    simp only [Path.name] at hs'
    subst hs'
    refine ⟨Path.splitOn_mem _ hs, ?_, ?_, ?_⟩ <;> rintro rfl <;> revert hn <;> decide

/-- C28: `%b` is the last component of `binary_path`, if that has one (does not end in `..` and is not the
root), and otherwise `binary_path` itself. -/
theorem C28_binary_name (o : PluginOptions) :
    (∀ name, LastName o.binaryPath name → o.binaryName = name) ∧
    ((∀ name, ¬ LastName o.binaryPath name) → o.binaryName = o.binaryPath) := by
  constructor
  · rintro name ⟨h47, h0, h1, h2, h⟩
    have key : (Path.components o.binaryPath).getLast? = some (.normal name) := by
      rcases h with h | ⟨dir, h⟩
      · rw [Path.components_same h, Path.components_eq, Path.name_body h47 h0 h1 h2]
        simp
      · rw [Path.components_same h, List.append_assoc, List.singleton_append, Path.components_append,
          Path.name_body h47 h0 h1 h2]
        simp
    unfold PluginOptions.binaryName Path.fileName
    rw [key]
    rfl
  · intro hno
    unfold PluginOptions.binaryName Path.fileName
    split
    · rename_i n hn
      exfalso
      obtain ⟨cs, hcs⟩ := List.getLast?_eq_some_iff.1 hn
      obtain ⟨h1, h2, h3, h4⟩ := normal_name (p := o.binaryPath) (n := n) (by rw [hcs]; simp)
      refine hno n ⟨h1, h2, h3, h4, ?_⟩
      have hs := Path.same_spell o.binaryPath
      rw [hcs] at hs
      cases cs with
      | nil => left; simpa [Path.spell, Path.name] using hs
      | cons c cs =>
        right
        refine ⟨Path.name c ++ cs.flatMap (fun c => 47 :: Path.name c), ?_⟩
        have e : Path.spell (c :: cs ++ [.normal n]) =
            Path.name c ++ (cs ++ [Comp.normal n]).flatMap (fun c => 47 :: Path.name c) := by
          cases cs <;> cases c <;> rfl
        rw [e] at hs
        simpa [Path.name] using hs
    · rfl

/-- C28: for a path `dir/name`, `%b` is `name`. -/
theorem C28_binary_name_literal (o : PluginOptions) (dir name : Bytes)
    (h : o.binaryPath = dir ++ b! "/" ++ name) (h47 : (47 : UInt8) ∉ name) (h0 : name ≠ [])
    (h1 : name ≠ b! ".") (h2 : name ≠ b! "..") : o.binaryName = name :=
  (C28_binary_name o).1 name ⟨h47, h0, h1, h2, Or.inr ⟨dir, h ▸ .refl _⟩⟩

/-- Non-vacuity for C28 `%b`: the default option value. -/
example : (PluginOptions.ofMap (.fromRaw none)).binaryName = b! "sudo_approve" := by decide

end SudoPair
