import Verif.Props.Template
import Verif.Props.Path
import Verif.Props.Command
/-
C28: the variables of the prompts.
-/
namespace SudoPair
open Spec

/-- The "extremely minimal default" (sudo_pair/README.md:123-127) for the pair, if there is no prompt at
`pair_prompt_path`. -/
def builtinPairPrompt : Bytes := b! "%U@%h:%d$ %C\ny/n? [n]: "

/-- The one for the user, if there is no prompt at `user_prompt_path`. -/
def builtinUserPrompt : Bytes := b! "%B %u %p\n"

open Classical in
/-- The last name of a path; the path itself if it has none (it ends in `..`, or is the root). -/
noncomputable def lastName (path : Bytes) : Bytes := if h : ∃ n, LastName path n then h.choose else path

theorem binaryName_eq (o : PluginOptions) : o.binaryName = lastName o.binaryPath := by
  unfold lastName
  split
  · rename_i h; exact (C28_binary_name o).1 _ h.choose_spec
  · rename_i h; exact (C28_binary_name o).2 fun n hn => h ⟨n, hn⟩

/-- The documented prompt variables (README, sample prompts). -/
noncomputable def promptVars (p : Pair) : UInt8 → Option Bytes := fun b =>
  match Char.ofNat b.toNat with
  | 'b' => some (lastName p.options.binaryPath)
  | 'B' => some p.options.binaryPath
  | 'C' => some (commandText p.env)
  | 'd' => some (commandDir p.env)
  | 'h' => some p.env.userInfo.host
  | 'H' => some (decimal p.env.userInfo.lines)
  | 'g' => some (decimal p.env.userInfo.gid)
  | 'p' => some (decimalInt p.env.userInfo.pid)
  | 'u' => some (decimal p.env.userInfo.uid)
  | 'U' => some p.env.userInfo.user
  | 'W' => some (decimal p.env.userInfo.cols)
  | _   => none

theorem cwd_eq (env : IoEnv) : env.cwd = commandDir env := by
  unfold IoEnv.cwd commandDir
  cases env.commandInfo.cwd <;> rfl

theorem templateSpec_get (p : Pair) (k : UInt8) : p.templateSpec.get k = promptVars p k := by
  have hrep : ∀ (t : TemplateSpec) (k k' : UInt8) (v : Bytes),
      (t.replace k v).get k' = if k' = k then some v else t.get k' :=
    fun t k k' v => (C26_table t 0 k k' v).1
  unfold Pair.templateSpec promptVars
  rw [decimal_fun, decimalInt_fun]
  rw [cwd_eq, invocation_eq, binaryName_eq]
  simp only [hrep, (C26_table (.withEscape 37) 37 k 0 []).2.2.1]
  by_cases hall : k ∈ b! "bBCdhHgpuUW"
  · simp only [List.mem_cons, List.not_mem_nil, or_false] at hall
    rcases hall with rfl | rfl | rfl | rfl | rfl | rfl | rfl | rfl | rfl | rfl | rfl <;> rfl
  · simp only [List.mem_cons, List.not_mem_nil, or_false, not_or] at hall
    obtain ⟨h1, h2, h3, h4, h5, h6, h7, h8, h9, h10, h11⟩ := hall
    simp only [h1, h2, h3, h4, h5, h6, h7, h8, h9, h10, h11, if_false]
    have hne : ∀ c : UInt8, k ≠ c → Char.ofNat k.toNat ≠ Char.ofNat c.toNat := by
      intro c hc heq
      apply hc
      have h : ∀ n, n < 256 → (Char.ofNat n).toNat = n := by
        intro n hn
        have : n.isValidChar := Or.inl (by omega)
        simp [Char.ofNat, this, Char.ofNatAux, Char.toNat]
      have := congrArg Char.toNat heq
      rw [h _ k.toNat_lt, h _ c.toNat_lt] at this
      exact UInt8.toNat_inj.1 this
    split
    · rename_i h; exact absurd h (hne 98 h1)
    · rename_i h; exact absurd h (hne 66 h2)
    · rename_i h; exact absurd h (hne 67 h3)
    · rename_i h; exact absurd h (hne 100 h4)
    · rename_i h; exact absurd h (hne 104 h5)
    · rename_i h; exact absurd h (hne 72 h6)
    · rename_i h; exact absurd h (hne 103 h7)
    · rename_i h; exact absurd h (hne 112 h8)
    · rename_i h; exact absurd h (hne 117 h9)
    · rename_i h; exact absurd h (hne 85 h10)
    · rename_i h; exact absurd h (hne 87 h11)
    · rfl

/-- C28: a prompt template expands, for every session, exactly by the documented variables with `%`
as the escape byte. -/
theorem C28_variables (p : Pair) (template prompt : Bytes) :
    p.templateSpec.expand template = prompt ↔ Expands 37 (promptVars p) template prompt := by
  have h1 : p.templateSpec.get = promptVars p := funext (templateSpec_get p)
  have h2 : p.templateSpec.escape = 37 := rfl
  rw [C26_template, h1, h2]

/-- C28: any text can be put in a prompt by doubling its `%` signs, since `%%` is not a variable. -/
theorem C28_percent (p : Pair) (s : Bytes) : p.templateSpec.expand (protect 37 s) = s :=
  C27_protect p.templateSpec s (by rw [templateSpec_get]; rfl)

/-- C17: `%u` and `%p` in a prompt are the uid and the pid in the socket name. -/
theorem C17_prompt (p : Pair) :
    p.templateSpec.expand (b! "%u.%p.sock") = socketName p.env.userInfo.uid p.env.userInfo.pid := by
  rw [C28_variables]
  unfold socketName
  simp only [List.append_assoc, List.cons_append, List.nil_append]
  refine .sub rfl (.lit (by decide) (.sub (x := decimalInt p.env.userInfo.pid) rfl ?_))
  exact .lit (by decide) (.lit (by decide) (.lit (by decide) (.lit (by decide) (.lit (by decide) .nil))))

end SudoPair
