import Verif.Spec.Config
import Verif.Props.Configured
/-
C79: configurations as the documentation describes them.
-/
namespace SudoPair
open Spec Core

/-- An entry with a `=` says one thing only. -/
theorem entry_given {key v k w : Bytes} (hk : (61 : UInt8) ∉ key) :
    Entry (key ++ b! "=" ++ v) k w ↔ k = key ∧ w = v := by
  have h1 : Entry (key ++ b! "=" ++ v) key v := Or.inl ⟨by simp, hk⟩
  constructor
  · intro h
    rw [entry_iff] at h h1
    rw [h1] at h
    simp only [Prod.mk.injEq] at h
    exact ⟨h.1.symm, h.2.symm⟩
  · rintro ⟨rfl, rfl⟩; exact h1

theorem mem_given {key e : Bytes} {o : Option Bytes} : e ∈ given key o ↔ ∃ v, o = some v ∧ e = key ++ b! "=" ++ v := by
  cases o <;> simp [given]

/-- The value of a key that all entries with that key agree about. -/
theorem value_agreed {vec : Option (List Bytes)} {k v : Bytes}
    (h1 : ∃ e ∈ vec.getD [], Entry e k v) (h2 : ∀ e ∈ vec.getD [], ∀ w, Entry e k w → w = v) : ∀ w, Value vec k w ↔ w = v := by
  have key : ∀ es : List Bytes, (∃ e ∈ es, Entry e k v) → (∀ e ∈ es, ∀ w, Entry e k w → w = v) →
      ∃ pre e post, es = pre ++ e :: post ∧ Entry e k v ∧ ∀ e' ∈ post, ∀ v', ¬ Entry e' k v' := by
    intro es
    induction es with
    | nil => rintro ⟨e, he, _⟩; simp at he
    | cons e es ih =>
      rintro ⟨e', he', hv⟩ ha
      by_cases hx : ∃ e ∈ es, Entry e k v
      · obtain ⟨pre, e1, post, rfl, h4, h5⟩ := ih hx (fun e he => ha e (.tail _ he))
        exact ⟨e :: pre, e1, post, rfl, h4, h5⟩
      · rcases List.mem_cons.1 he' with rfl | he'
        · refine ⟨[], e', es, rfl, hv, fun e2 he2 v' h6 => hx ⟨e2, he2, ?_⟩⟩
          rwa [← ha e2 (.tail _ he2) v' h6]
        · exact absurd ⟨e', he', hv⟩ hx
  intro w
  cases vec with
  | none => obtain ⟨e, he, _⟩ := h1; simp at he
  | some es =>
    constructor
    · rintro ⟨pre, e, post, hes, h4, _⟩
      simp only [Option.some.injEq] at hes
      exact h2 e (by simp [hes]) w h4
    · rintro rfl
      obtain ⟨pre, e, post, h3, h4, h5⟩ := key es h1 h2
      exact ⟨pre, e, post, by rw [h3], h4, h5⟩

theorem value_missing {vec : Option (List Bytes)} {k : Bytes} (h : ∀ e ∈ vec.getD [], ∀ w, ¬ Entry e k w) (w : Bytes) :
    ¬ Value vec k w := by
  rintro ⟨pre, e, post, rfl, h1, _⟩
  exact h e (by simp) w h1

/-- What the words of a configuration say. -/
theorem entry_words {c : Conf} {e k w : Bytes} : (e ∈ c.words ∧ Entry e k w) ↔
    ∃ o : Option Bytes, o = some w ∧ e = k ++ b! "=" ++ w ∧
      ((k = b! "binary_path" ∧ o = c.binaryPath) ∨ (k = b! "user_prompt_path" ∧ o = c.userPromptPath) ∨
       (k = b! "pair_prompt_path" ∧ o = c.pairPromptPath) ∨ (k = b! "socket_dir" ∧ o = c.socketDir) ∨
       (k = b! "gids_enforced" ∧ o = c.gidsEnforced.map commaList) ∨
       (k = b! "gids_exempted" ∧ o = c.gidsExempted.map commaList)) := by
  have aux : ∀ {key : Bytes} {o : Option Bytes}, (61 : UInt8) ∉ key →
      ((e ∈ given key o ∧ Entry e k w) ↔ (k = key ∧ o = some w ∧ e = k ++ b! "=" ++ w)) := by
    intro key o hk
    rw [mem_given]
    constructor
    · rintro ⟨⟨v, h1, rfl⟩, h2⟩
      obtain ⟨rfl, rfl⟩ := (entry_given hk).1 h2
      exact ⟨rfl, h1, rfl⟩
    · rintro ⟨rfl, h1, rfl⟩
      exact ⟨⟨w, h1, rfl⟩, (entry_given hk).2 ⟨rfl, rfl⟩⟩
  unfold Conf.words
  simp only [List.mem_append, or_and_right]
  rw [aux (by decide), aux (by decide), aux (by decide), aux (by decide), aux (by decide), aux (by decide)]
  constructor
  · rintro (((((⟨h1, h2, h3⟩ | ⟨h1, h2, h3⟩) | ⟨h1, h2, h3⟩) | ⟨h1, h2, h3⟩) | ⟨h1, h2, h3⟩) | ⟨h1, h2, h3⟩)
    · exact ⟨_, h2, h3, .inl ⟨h1, rfl⟩⟩
    · exact ⟨_, h2, h3, .inr (.inl ⟨h1, rfl⟩)⟩
    · exact ⟨_, h2, h3, .inr (.inr (.inl ⟨h1, rfl⟩))⟩
    · exact ⟨_, h2, h3, .inr (.inr (.inr (.inl ⟨h1, rfl⟩)))⟩
    · exact ⟨_, h2, h3, .inr (.inr (.inr (.inr (.inl ⟨h1, rfl⟩))))⟩
    · exact ⟨_, h2, h3, .inr (.inr (.inr (.inr (.inr ⟨h1, rfl⟩))))⟩
  · rintro ⟨o, h1, h2, ⟨rfl, rfl⟩ | ⟨rfl, rfl⟩ | ⟨rfl, rfl⟩ | ⟨rfl, rfl⟩ | ⟨rfl, rfl⟩ | ⟨rfl, rfl⟩⟩
    · exact .inl (.inl (.inl (.inl (.inl ⟨rfl, h1, h2⟩))))
    · exact .inl (.inl (.inl (.inl (.inr ⟨rfl, h1, h2⟩))))
    · exact .inl (.inl (.inl (.inr ⟨rfl, h1, h2⟩)))
    · exact .inl (.inl (.inr ⟨rfl, h1, h2⟩))
    · exact .inl (.inr ⟨rfl, h1, h2⟩)
    · exact .inr ⟨rfl, h1, h2⟩

/-- The option of one key, read from the words in any order. -/
theorem reads_words {α : Type} {c : Conf} {vec : Option (List Bytes)} (hv : (vec.getD []).Perm c.words) {k : Bytes}
    {o : Option Bytes} {D : Bytes → α → Prop} {d : α} {x : Option α}
    (hk : ∀ w, (∃ o' : Option Bytes, o' = some w ∧
      ((k = b! "binary_path" ∧ o' = c.binaryPath) ∨ (k = b! "user_prompt_path" ∧ o' = c.userPromptPath) ∨
       (k = b! "pair_prompt_path" ∧ o' = c.pairPromptPath) ∨ (k = b! "socket_dir" ∧ o' = c.socketDir) ∨
       (k = b! "gids_enforced" ∧ o' = c.gidsEnforced.map commaList) ∨
       (k = b! "gids_exempted" ∧ o' = c.gidsExempted.map commaList))) ↔ o = some w)
    (hx : ∀ w, o = some w → Utf8 w ∧ ∃ y, x = some y ∧ D w y ∧ ∀ z, D w z → z = y) (hn : o = none → x = none) :
    Reads vec k D d (x.getD d) := by
  have hw : ∀ e w, (e ∈ vec.getD [] ∧ Entry e k w) ↔ o = some w ∧ e = k ++ b! "=" ++ w := by
    intro e w
    rw [hv.mem_iff, entry_words, ← hk w]
    constructor
    · rintro ⟨o', h1, h2, h3⟩; exact ⟨⟨o', h1, h3⟩, h2⟩
    · rintro ⟨⟨o', h1, h3⟩, h2⟩; exact ⟨o', h1, h2, h3⟩
  cases o with
  | none =>
    rw [hn rfl]
    have hm := value_missing (vec := vec) (k := k) (fun e he w hew => by simpa using ((hw e w).1 ⟨he, hew⟩).1)
    exact ⟨fun v a h _ _ => absurd h (hm v), fun _ => rfl⟩
  | some v =>
    have hval := value_agreed (vec := vec) (k := k) (v := v)
      ⟨_, ((hw (k ++ b! "=" ++ v) v).2 ⟨rfl, rfl⟩).1, ((hw (k ++ b! "=" ++ v) v).2 ⟨rfl, rfl⟩).2⟩
      (fun e he w hew => by simpa using ((hw e w).1 ⟨he, hew⟩).1.symm)
    obtain ⟨hu, y, rfl, hy, hyu⟩ := hx v rfl
    refine ⟨fun w a h1 _ h3 => ?_, fun hno => absurd ⟨v, y, (hval v).2 rfl, hu, hy⟩ hno⟩
    obtain rfl := (hval w).1 h1
    exact (hyu a h3).symm

theorem denotesIds_commaList : ∀ {l : List Nat}, l ≠ [] → (∀ n ∈ l, n < 2 ^ 32) → DenotesIds (commaList l) l
  | [], h, _ => absurd rfl h
  | [n], _, h => by
    refine ⟨decimal n, [], by simp [commaList], ?_, rfl, ?_⟩
    · intro p hp
      simp only [List.mem_singleton] at hp
      subst hp
      rw [← decNat_eq_decimal]
      intro hm
      have := decNat_digit hm
      unfold IsDigit at this
      simp at this
    · intro q hq
      simp only [List.zip_cons_cons, List.zip_nil_right, List.mem_singleton] at hq
      subst hq
      exact ⟨h n (.head _), .inl (by simpa [← decNat_eq_decimal] using decNat_decimal n)⟩
  | n :: m :: l, _, h => by
    obtain ⟨first, rest, h1, h2, h3, h4⟩ := denotesIds_commaList (l := m :: l) (by simp) (fun n hn => h n (.tail _ hn))
    refine ⟨decimal n, first :: rest, ?_, ?_, by simpa using h3, ?_⟩
    · show decimal n ++ b! "," ++ commaList (m :: l) = _
      rw [h1]
      simp only [List.flatMap_cons, List.append_assoc]
      rfl
    · intro p hp
      rcases List.mem_cons.1 hp with rfl | hp
      · rw [← decNat_eq_decimal]
        intro hm
        have := decNat_digit hm
        unfold IsDigit at this
        simp at this
      · exact h2 p hp
    · intro q hq
      rw [List.zip_cons_cons] at hq
      rcases List.mem_cons.1 hq with rfl | hq
      · exact ⟨h n (.head _), .inl (by simpa [← decNat_eq_decimal] using decNat_decimal n)⟩
      · exact h4 q hq

theorem denotesIds_unique {s : Bytes} {l l' : List Nat} (h : DenotesIds s l) (h' : DenotesIds s l') : l = l' := by
  have h := (C31_ids s l).2 h
  rw [(C31_ids s l').2 h'] at h
  exact (Option.some.inj h).symm

/-- C79: the plugin uses the options that the configuration means, in whatever order its words are written. -/
theorem C79_options {c : Conf} (hc : c.Sound) {vec : Option (List Bytes)} (hv : (vec.getD []).Perm c.words) :
    PluginOptions.ofMap (.fromRaw vec) = c.meant := by
  have hs : ∀ {o : Option Bytes}, (∀ v, o = some v → Utf8 v) → ∀ w, o = some w → Utf8 w ∧ ∃ y, o = some y ∧ DenotesS w y ∧
      ∀ z, DenotesS w z → z = y :=
    fun h w hw => ⟨h w hw, w, hw, rfl, fun z hz => hz.symm⟩
  have hl : ∀ {o : Option (List Nat)}, (∀ l, o = some l → l ≠ [] ∧ ∀ n ∈ l, n < 2 ^ 32) → ∀ w, o.map commaList = some w →
      Utf8 w ∧ ∃ y, o = some y ∧ DenotesIds w y ∧ ∀ z, DenotesIds w z → z = y := by
    intro o h w hw
    cases o with
    | none => simp at hw
    | some l =>
      simp only [Option.map_some, Option.some.injEq] at hw
      subst hw
      have hd := denotesIds_commaList (h l rfl).1 (h l rfl).2
      exact ⟨utf8_of_ascii (denotesList_ascii (by decide) (fun _ _ => denotesU_ascii) hd), l, rfl, hd,
        fun z hz => denotesIds_unique hz hd⟩
  refine C32_determined (C32_plugin_options vec) ⟨?_, ?_, ?_, ?_, ?_, ?_⟩
  · exact reads_words hv (o := c.binaryPath) (fun w => by simp +decide [eq_comm]) (hs fun v h => hc.1 v (by simp [h])) id
  · exact reads_words hv (o := c.userPromptPath) (fun w => by simp +decide [eq_comm]) (hs fun v h => hc.1 v (by simp [h])) id
  · exact reads_words hv (o := c.pairPromptPath) (fun w => by simp +decide [eq_comm]) (hs fun v h => hc.1 v (by simp [h])) id
  · exact reads_words hv (o := c.socketDir) (fun w => by simp +decide [eq_comm]) (hs fun v h => hc.1 v (by simp [h])) id
  · exact reads_words hv (o := c.gidsEnforced.map commaList) (fun w => by simp +decide [eq_comm])
      (hl fun l h => hc.2 l (by simp [h])) (by simp)
  · exact reads_words hv (o := c.gidsExempted.map commaList) (fun w => by simp +decide [eq_comm])
      (hl fun l h => hc.2 l (by simp [h])) (by simp)

/-- The three shipped or documented lines: README, Makefile (for any gid `n` of the group `nogroup`), and, but for the
empty value, the sample sudo.conf. -/
def readmeConf : Conf := { socketDir := some (b! "/var/tmp/sudo_pair"), gidsExempted := some [42, 109] }
def makefileConf (n : Nat) : Conf := { gidsEnforced := some [n] }

example : readmeConf.words = [b! "socket_dir=/var/tmp/sudo_pair", b! "gids_exempted=42,109"] ∧ readmeConf.Sound ∧
    (makefileConf 65534).words = [b! "gids_enforced=65534"] ∧ (makefileConf 65534).Sound := by
  refine ⟨by decide +kernel, ⟨?_, ?_⟩, by decide +kernel, ⟨?_, ?_⟩⟩
  · intro v h
    simp only [readmeConf, reduceCtorEq, Option.some.injEq, false_or] at h
    subst h
    exact (utf8Valid_iff _).1 (by decide +kernel)
  · intro l h
    simp only [readmeConf, reduceCtorEq, Option.some.injEq, false_or] at h
    subst h
    decide
  · intro v h; simp [makefileConf] at h
  · intro l h
    simp only [makefileConf, reduceCtorEq, Option.some.injEq, or_false] at h
    subst h
    decide

/-- C79: with a configuration as documented, `open` returns 1 for a session with a command only if the session is
exempt by the documented rule with the gids and the approval binary of the configuration, or a pair approved it on the
session's socket in the configured directory, after the prompt at the configured place (or the built-in prompt). -/
theorem C79_open {c : Conf} (hc : c.Sound) {rt : Rt} {a : OpenArgs} (hv : (a.pluginOptions.getD []).Perm c.words)
    {env : IoEnv} (hnew : IoEnv.new rt a = some (.ok env)) (hcmd : env.commandInfo.command ≠ []) {st : State} {h : Hist}
    (hr : Runs (Core.open rt a Core.init) (.ok (1, st)) h) :
    Exempt env c.meant ∨
    ∃ fd, Approved (socketFile c.meant.socketDir env.userInfo.uid env.userInfo.pid) c.meant.pairPromptPath
      builtinPairPrompt (promptVars (Pair.ofEnv env)) fd h := by
  have ho : optionsOf env = c.meant := by
    rw [← C79_options hc hv]
    exact C32_determined (C32_session hnew) (C32_plugin_options _)
  classical
  by_cases hx : SessionExempt env
  · left
    unfold SessionExempt at hx
    rwa [ho] at hx
  · right
    obtain ⟨p, _, hp⟩ := fresh_open_stored hr hnew hcmd
    obtain ⟨fd, _, hap⟩ := approvedSession_of hx hp
    unfold ApprovedSession sessionPath at hap
    rw [ho] at hap
    exact ⟨fd, hap⟩

/-- An empty list of gids, as in the sample sudo.conf, means the default. -/
example :
    PluginOptions.ofMap (.fromRaw (some [b! "gids_enforced="])) = ({} : Conf).meant ∧
    PluginOptions.ofMap (.fromRaw (some [b! "gids_exempted="])) = ({} : Conf).meant := by
  decide +kernel

/-- C79: with the line that the Makefile writes, nobody is asked about a command that does not run with the group
`nogroup`, as root or not. -/
theorem C79_makefile {n : Nat} (hn : n < 2 ^ 32) {rt : Rt} {a : OpenArgs} (hrel : rt.debug = false)
    (hv : a.pluginOptions = some [b! "gids_enforced=" ++ decimal n]) {env : IoEnv}
    (hnew : IoEnv.new rt a = some (.ok env)) (hg : ¬ RunsWith env n) {o : Out (Int × State)} {h : Hist}
    (hr : Runs (Core.open rt a Core.init) o h) : h = [] ∧ ∃ st, o = .ok (1, st) := by
  have hc : (makefileConf n).Sound := by
    refine ⟨fun v h => by simp [makefileConf] at h, fun l h => ?_⟩
    simp only [makefileConf, reduceCtorEq, Option.some.injEq, or_false] at h
    subst h
    simpa using hn
  have hp : (a.pluginOptions.getD []).Perm (makefileConf n).words := by
    rw [hv]
    exact .of_eq (by simp [makefileConf, Conf.words, given, commaList])
  have ho : optionsOf env = (makefileConf n).meant := by
    rw [← C79_options hc hp]
    exact C32_determined (C32_session hnew) (C32_plugin_options _)
  have hx : SessionExempt env := by
    unfold SessionExempt
    rw [ho]
    refine .inr (.inr (.inr (.inr (.inr fun g h1 => ?_))))
    simp only [Conf.meant, makefileConf, Option.getD_some, List.mem_singleton] at h1
    subst h1
    exact hg
  obtain ⟨h1, st, h2, _⟩ := C05_open rt a Core.init env o h hnew rfl hx (by simp [hrel]) hr
  exact ⟨h1, st, h2⟩

/-- Such a session: root's group only, a shell as root. -/
example : (∃ env, IoEnv.new sampleRt { sampleArgs with pluginOptions := some [b! "gids_enforced=" ++ decimal 65534] } =
      some (.ok env) ∧ env.commandInfo.runasEuid = 0 ∧ env.userInfo.uid = 1000 ∧ ¬ RunsWith env 65534) ∧
    retOf (Core.open sampleRt { sampleArgs with pluginOptions := some [b! "gids_enforced=" ++ decimal 65534] }
      Core.init []).1 = some 1 := by
  refine ⟨⟨_, rfl, by decide +kernel, by decide +kernel, ?_⟩, by decide +kernel⟩
  rintro (h | ⟨gs, h1, h2⟩ | ⟨h1, _⟩)
  · revert h; decide +kernel
  · have h3 : gs = [0] := Option.some.inj (h1.symm.trans (by decide +kernel))
    subst h3
    revert h2; decide
  · revert h1; decide +kernel

end SudoPair
