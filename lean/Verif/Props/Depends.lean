import Verif.Spec.Depends
import Verif.Lemmas.Options
import Verif.Lemmas.Lawful
import Verif.Lemmas.Scenario
import Verif.Model.Core
/-
C74: what the plugin's behaviour depends on.
-/
namespace SudoPair
open Spec Core

/-! ### The same behaviour -/

/-- Two pieces of code do the same under all circumstances, with results related by `R`. -/
def Mirrors {α β : Type} (R : α → β → Prop) (m : M α) (m' : M β) : Prop :=
  ∀ s, (m s).2 = (m' s).2 ∧
    match (m s).1, (m' s).1 with
    | .ok a, .ok b => R a b
    | .panic, .panic => True
    | .killed, .killed => True
    | _, _ => False

variable {α β γ δ : Type}

theorem Mirrors.pure {R : α → β → Prop} {a : α} {b : β} (h : R a b) : Mirrors R (Pure.pure a : M α) (Pure.pure b : M β) :=
  fun _ => ⟨rfl, h⟩

theorem Mirrors.refl {R : α → α → Prop} (h : ∀ a, R a a) (m : M α) : Mirrors R m m := by
  intro s
  refine ⟨rfl, ?_⟩
  cases (m s).1 <;> simp [h]

theorem Mirrors.bind {R : α → β → Prop} {Q : γ → δ → Prop} {m : M α} {m' : M β} {f : α → M γ} {f' : β → M δ}
    (hm : Mirrors R m m') (hf : ∀ a b, R a b → Mirrors Q (f a) (f' b)) : Mirrors Q (m >>= f) (m' >>= f') := by
  intro s
  obtain ⟨h1, h2⟩ := hm s
  show (M.bind m f s).2 = (M.bind m' f' s).2 ∧ match (M.bind m f s).1, (M.bind m' f' s).1 with
    | .ok a, .ok b => Q a b
    | .panic, .panic => True
    | .killed, .killed => True
    | _, _ => False
  unfold M.bind
  rcases hr : m s with ⟨a | _ | _, h, s1⟩ <;> rcases hr' : m' s with ⟨b | _ | _, h', s1'⟩ <;> rw [hr, hr'] at h1 h2 <;>
    simp only [Prod.mk.injEq] at h1 h2 ⊢ <;> obtain ⟨rfl, rfl⟩ := h1 <;> try simp
  obtain ⟨h3, h4⟩ := hf a b h2 s1
  exact ⟨Prod.ext_iff.1 h3, h4⟩

theorem Mirrors.catchUnwind {R : α → β → Prop} {m : M α} {m' : M β} (hm : Mirrors R m m') :
    Mirrors (Option.Rel R) (M.catchUnwind m) (M.catchUnwind m') := by
  intro s
  obtain ⟨h1, h2⟩ := hm s
  unfold M.catchUnwind
  rcases hr : m s with ⟨a | _ | _, h, s1⟩ <;> rcases hr' : m' s with ⟨b | _ | _, h', s1'⟩ <;> rw [hr, hr'] at h1 h2 <;>
    simp only [Prod.mk.injEq] at h1 h2 ⊢ <;> obtain ⟨rfl, rfl⟩ := h1 <;> simp
  exact h2

theorem Mirrors.onUnwind {R : α → β → Prop} {m : M α} {m' : M β} (hm : Mirrors R m m') (c : M Unit) :
    Mirrors R (M.onUnwind m c) (M.onUnwind m' c) := by
  intro s
  obtain ⟨h1, h2⟩ := hm s
  unfold M.onUnwind
  rcases hr : m s with ⟨a | _ | _, h, s1⟩ <;> rcases hr' : m' s with ⟨b | _ | _, h', s1'⟩ <;> rw [hr, hr'] at h1 h2 <;>
    simp only [Prod.mk.injEq] at h1 h2 ⊢ <;> obtain ⟨rfl, rfl⟩ := h1 <;> try simp
  · exact h2
  · rcases c s1 with ⟨_ | _ | _, h3, s3⟩ <;> simp

/-! ### What is left of an environment if everything is dropped that has no influence -/

def Settings.essence (s : Settings) : Settings := { s with
  debugFlags := none, debugLevel := none, impliedShell := false, maxGroups := none, networkAddrs := []
  pluginDir := [], pluginPath := [], remoteHost := none, timeout := none }

def UserInfo.essence (u : UserInfo) : UserInfo := { u with
  egid := 0, pgid := 0, ppid := 0, sid := 0, tcpgid := 0, umask := none }

def CommandInfo.essence (d : Bool) (c : CommandInfo) : CommandInfo := { c with
  preserveGroups := d && c.preserveGroups
  chroot := none, closeFrom := none, execBackground := false, execFd := none, iologCompress := false
  iologGroup := none, iologMode := none, iologPath := none, iologTtyin := false, iologUser := none
  loginClass := none, nice := none, noexec := false, preserveFds := [], runasGid := 0
  selinuxRole := none, selinuxType := none, setUtmp := false, sudoedit := false, sudoeditCheckdir := false
  sudoeditFollow := false, timeout := none, umask := 0, umaskOverride := none, usePty := false, utmpUser := none }

def IoEnv.essence (d : Bool) (e : IoEnv) : IoEnv := { e with
  apiVersion := ⟨0, 0⟩, settings := e.settings.essence, userInfo := e.userInfo.essence
  commandInfo := e.commandInfo.essence d, userEnv := [], pluginOptions := [] }

def Pair.essence (d : Bool) (p : Pair) : Pair := { p with env := p.env.essence d }

/-- Two environments in which the plugin does the same, and two instances of the plugin, and two states. -/
def EnvSame (d : Bool) (e e' : IoEnv) : Prop :=
  e.essence d = e'.essence d ∧ PluginOptions.ofMap e.pluginOptions = PluginOptions.ofMap e'.pluginOptions

def PairSame (d : Bool) (p p' : Pair) : Prop := p.essence d = p'.essence d

def StSame (d : Bool) (st st' : State) : Prop :=
  Option.Rel (EnvSame d) st.env st'.env ∧ Option.Rel (PairSame d) st.plugin st'.plugin

variable {rt : Rt}

theorem isExempt_same {p p' : Pair} (h : PairSame rt.debug p p') : p.isExempt rt.debug = p'.isExempt rt.debug := by
  have : ∀ p : Pair, p.isExempt rt.debug = (p.essence rt.debug).isExempt rt.debug := by
    intro p; cases h : rt.debug <;> rfl
  rw [this, this p', h]

theorem open_same (rt : Rt) {e e' : IoEnv} (h : EnvSame rt.debug e e') :
    Mirrors (fun x y => match x, y with | .ok p, .ok p' => PairSame rt.debug p p' | .error a, .error b => a = b | _, _ => False)
      (Pair.open rt e) (Pair.open rt e') := by
  have hp : PairSame rt.debug { env := e, options := .ofMap e.pluginOptions, socket := none }
      { env := e', options := .ofMap e'.pluginOptions, socket := none } := by
    obtain ⟨h1, h2⟩ := h
    unfold PairSame Pair.essence
    simp only [h1, h2]
  unfold Pair.open
  generalize ({ env := e, options := .ofMap e.pluginOptions, socket := none } : Pair) = p at hp
  generalize ({ env := e', options := .ofMap e'.pluginOptions, socket := none } : Pair) = p' at hp
  have e1 : p.toUserAndGroup = p'.toUserAndGroup := by
    have : ∀ p : Pair, p.toUserAndGroup = (p.essence rt.debug).toUserAndGroup := fun _ => rfl
    rw [this, this p', hp]
  have e2 : p.templateSpec = p'.templateSpec := by
    have : ∀ p : Pair, p.templateSpec = (p.essence rt.debug).templateSpec := fun _ => rfl
    rw [this, this p', hp]
  have e3 : p.localPairPrompt = p'.localPairPrompt := by
    have : ∀ p : Pair, p.localPairPrompt = (p.essence rt.debug).localPairPrompt := fun _ => rfl
    rw [this, this p', hp]
  have e4 : p.remotePairConnect rt = p'.remotePairConnect rt := by
    have : ∀ p : Pair, p.remotePairConnect rt = (p.essence rt.debug).remotePairConnect rt := fun _ => rfl
    rw [this, this p', hp]
  have e5 : p.remotePairPrompt = p'.remotePairPrompt := by
    have : ∀ p : Pair, p.remotePairPrompt = (p.essence rt.debug).remotePairPrompt := fun _ => rfl
    rw [this, this p', hp]
  simp only [isExempt_same hp, e1, e2, e3, e4, e5]
  refine (Mirrors.refl (R := Eq) (fun _ => rfl) _).bind ?_
  rintro x _ rfl
  split
  · exact .pure hp
  split
  · exact .pure rfl
  refine (Mirrors.refl (R := Eq) (fun _ => rfl) _).bind ?_
  rintro _ _ -
  refine (Mirrors.refl (R := Eq) (fun _ => rfl) _).bind ?_
  rintro x _ rfl
  cases x with
  | error e => exact .pure rfl
  | ok fd =>
    refine .onUnwind ?_ _
    refine (Mirrors.refl (R := Eq) (fun _ => rfl) _).bind ?_
    rintro x _ rfl
    cases x with
    | ok u =>
      refine .pure ?_
      show Pair.essence rt.debug _ = Pair.essence rt.debug _
      have : ∀ p : Pair, ({ p with socket := some fd } : Pair).essence rt.debug = { p.essence rt.debug with socket := some fd } := fun _ => rfl
      rw [this, this p', show p.essence rt.debug = p'.essence rt.debug from hp]
    | error e =>
      refine (Mirrors.refl (R := Eq) (fun _ => rfl) _).bind ?_
      rintro _ _ -
      exact .pure rfl

/-! ### Reading the arguments of `open` -/

/-- Two calls of `open` that differ at most in what has no influence. -/
structure SameInput (debug : Bool) (a a' : OpenArgs) : Prop where
  version : a.version = a'.version
  printf : a.hasPrintf = a'.hasPrintf
  argv : a.argv = a'.argv
  settings : Agree settingsKeys a.settings a'.settings
  userInfo : Agree userKeys a.userInfo a'.userInfo
  commandInfo : Agree (commandKeys debug) a.commandInfo a'.commandInfo
  pluginOptions : Agree optionKeys a.pluginOptions a'.pluginOptions

theorem agree_getStr {keys : List Bytes} {vec vec' : Option (List Bytes)} (h : Agree keys vec vec') {k : Bytes}
    (hk : k ∈ keys) : (OptionMap.fromRaw vec).getStr k = (OptionMap.fromRaw vec').getStr k := by
  unfold OptionMap.getStr
  congr 1
  apply Option.ext
  intro v
  rw [fromRaw_getBytes, fromRaw_getBytes, h k hk v]

theorem agree_get {keys : List Bytes} {vec vec' : Option (List Bytes)} (h : Agree keys vec vec') {α : Type}
    (p : Bytes → Option α) (k : Bytes) (hk : k ∈ keys) :
    (OptionMap.fromRaw vec).get p k = (OptionMap.fromRaw vec').get p k := by
  unfold OptionMap.get
  rw [agree_getStr h hk]

theorem agree_get? {keys : List Bytes} {vec vec' : Option (List Bytes)} (h : Agree keys vec vec') {α : Type}
    (p : Bytes → Option α) (k : Bytes) (hk : k ∈ keys) :
    (OptionMap.fromRaw vec).get? p k = (OptionMap.fromRaw vec').get? p k := by
  unfold OptionMap.get?
  rw [agree_get h p k hk]

theorem agree_getD {keys : List Bytes} {vec vec' : Option (List Bytes)} (h : Agree keys vec vec') {α : Type}
    (p : Bytes → Option α) (k : Bytes) (hk : k ∈ keys) (d : α) :
    (OptionMap.fromRaw vec).getD p k d = (OptionMap.fromRaw vec').getD p k d := by
  unfold OptionMap.getD
  rw [agree_get? h p k hk]

theorem options_same {vec vec' : Option (List Bytes)} (h : Agree optionKeys vec vec') :
    PluginOptions.ofMap (.fromRaw vec) = PluginOptions.ofMap (.fromRaw vec') := by
  unfold PluginOptions.ofMap
  simp only [agree_getD h parseStr (b! "binary_path") (by decide), agree_getD h parseStr (b! "user_prompt_path") (by decide),
    agree_getD h parseStr (b! "pair_prompt_path") (by decide), agree_getD h parseStr (b! "socket_dir") (by decide),
    agree_getD h (parseList u32) (b! "gids_enforced") (by decide), agree_getD h (parseList u32) (b! "gids_exempted") (by decide)]

theorem commandInfo_same {d : Bool} {vec vec' : Option (List Bytes)} (h : Agree (commandKeys d) vec vec') (euid egid : Nat) :
    (CommandInfo.tryFrom euid egid (.fromRaw vec)).essence d = (CommandInfo.tryFrom euid egid (.fromRaw vec')).essence d := by
  unfold CommandInfo.tryFrom CommandInfo.essence
  have hk : ∀ k ∈ commandKeys false, k ∈ commandKeys d := by
    intro k hk
    unfold commandKeys at hk ⊢
    rw [if_neg (by decide), List.append_nil] at hk
    exact List.mem_append_left _ hk
  have hp : (d && (OptionMap.fromRaw vec).getD parseBool (b! "preserve_groups") false) =
      (d && (OptionMap.fromRaw vec').getD parseBool (b! "preserve_groups") false) := by
    cases d with
    | false => rfl
    | true => rw [agree_getD h parseBool _ (by decide)]
  simp only [hp, agree_getD h parseStr (b! "command") (hk _ (by decide)), agree_getD h u32 (b! "runas_uid") (hk _ (by decide)),
    agree_getD h u32 (b! "runas_gid") (hk _ (by decide)), agree_getD h u32 (b! "runas_euid") (hk _ (by decide)),
    agree_getD h u32 (b! "runas_egid") (hk _ (by decide)), agree_get? h (parseList u32) (b! "runas_groups") (hk _ (by decide)),
    agree_get? h parseStr (b! "cwd") (hk _ (by decide)), agree_getD h parseBool (b! "iolog_stdin") (hk _ (by decide)),
    agree_getD h parseBool (b! "iolog_stdout") (hk _ (by decide)), agree_getD h parseBool (b! "iolog_stderr") (hk _ (by decide)),
    agree_getD h parseBool (b! "iolog_ttyout") (hk _ (by decide))]

theorem userInfo_same {vec vec' : Option (List Bytes)} (h : Agree userKeys vec vec') :
    (UserInfo.tryFrom (.fromRaw vec)).map UserInfo.essence = (UserInfo.tryFrom (.fromRaw vec')).map UserInfo.essence := by
  unfold UserInfo.tryFrom
  simp only [agree_get h parseStr (b! "cwd") (by decide), agree_get h u32 (b! "egid") (by decide),
    agree_get h u32 (b! "euid") (by decide), agree_get h u32 (b! "gid") (by decide),
    agree_get h (parseList u32) (b! "groups") (by decide), agree_get h parseStr (b! "host") (by decide),
    agree_get h i32 (b! "pgid") (by decide), agree_get h i32 (b! "pid") (by decide), agree_get h i32 (b! "ppid") (by decide),
    agree_get h u32 (b! "uid") (by decide), agree_get h parseStr (b! "user") (by decide),
    agree_getD h u64 (b! "cols") (by decide), agree_getD h u64 (b! "lines") (by decide),
    agree_get? h parseStr (b! "tty") (by decide)]
  generalize OptionMap.get _ _ (b! "cwd") = x1
  generalize OptionMap.get _ _ (b! "egid") = x2
  generalize OptionMap.get _ _ (b! "euid") = x3
  generalize OptionMap.get _ _ (b! "gid") = x4
  generalize OptionMap.get _ _ (b! "groups") = x5
  generalize OptionMap.get _ _ (b! "host") = x6
  generalize OptionMap.get _ _ (b! "pgid") = x7
  generalize OptionMap.get _ _ (b! "pid") = x8
  generalize OptionMap.get _ _ (b! "ppid") = x9
  generalize OptionMap.get _ _ (b! "uid") = x10
  generalize OptionMap.get _ _ (b! "user") = x11
  rcases x1 with _ | _; · rfl
  rcases x2 with _ | _; · rfl
  rcases x3 with _ | _; · rfl
  rcases x4 with _ | _; · rfl
  rcases x5 with _ | _; · rfl
  rcases x6 with _ | _; · rfl
  rcases x7 with _ | _; · rfl
  rcases x8 with _ | _; · rfl
  rcases x9 with _ | _; · rfl
  rcases x10 with _ | _; · rfl
  rcases x11 with _ | _ <;> rfl

theorem settings_same {vec vec' : Option (List Bytes)} (h : Agree settingsKeys vec vec') (parseIp : Bytes → Option Bytes) :
    (Settings.tryFrom parseIp (.fromRaw vec)).map (Except.map Settings.essence) =
      (Settings.tryFrom parseIp (.fromRaw vec')).map (Except.map Settings.essence) := by
  have hn : getNetAddrs parseIp (.fromRaw vec) = getNetAddrs parseIp (.fromRaw vec') := by
    unfold getNetAddrs
    rw [agree_getStr h (by decide)]
  unfold Settings.tryFrom
  simp only [agree_get h parseStr (b! "plugin_dir") (by decide), agree_get h parseStr (b! "plugin_path") (by decide),
    agree_get h parseStr (b! "progname") (by decide), hn, agree_get? h parseStr (b! "bsd_auth_type") (by decide),
    agree_get? h u64 (b! "closefrom") (by decide), agree_getD h parseBool (b! "ignore_ticket") (by decide),
    agree_get? h parseStr (b! "login_class") (by decide), agree_getD h parseBool (b! "login_shell") (by decide),
    agree_getD h parseBool (b! "noninteractive") (by decide), agree_getD h parseBool (b! "preserve_environment") (by decide),
    agree_getD h parseBool (b! "preserve_groups") (by decide), agree_get? h parseStr (b! "prompt") (by decide),
    agree_getD h parseBool (b! "run_shell") (by decide), agree_get? h parseStr (b! "runas_group") (by decide),
    agree_get? h parseStr (b! "runas_user") (by decide), agree_get? h parseStr (b! "selinux_role") (by decide),
    agree_get? h parseStr (b! "selinux_type") (by decide), agree_getD h parseBool (b! "set_home") (by decide),
    agree_getD h parseBool (b! "sudoedit") (by decide)]
  split
  · rfl
  · split <;> rfl

theorem new_same {a a' : OpenArgs} (h : SameInput rt.debug a a') :
    Option.Rel (fun x y => match x, y with | .ok e, .ok e' => EnvSame rt.debug e e' | .error x, .error y => x = y | _, _ => False)
      (IoEnv.new rt a) (IoEnv.new rt a') := by
  unfold IoEnv.new
  rw [h.version]
  cases IoEnv.checkVersion a'.version with
  | error e => exact .some rfl
  | ok v =>
    have h1 := settings_same h.settings rt.parseIp
    rcases hs : Settings.tryFrom rt.parseIp (.fromRaw a.settings) with _ | (e | s) <;>
      rcases hs' : Settings.tryFrom rt.parseIp (.fromRaw a'.settings) with _ | (e' | s') <;> rw [hs, hs'] at h1 <;>
      simp only [Option.map_none, Option.map_some, Except.map, reduceCtorEq, Option.some.injEq, Except.error.injEq,
        Except.ok.injEq] at h1
    · exact .none
    · exact .some h1
    · have h2 := userInfo_same h.userInfo
      rcases hu : UserInfo.tryFrom (.fromRaw a.userInfo) with e | u <;>
        rcases hu' : UserInfo.tryFrom (.fromRaw a'.userInfo) with e' | u' <;> rw [hu, hu'] at h2 <;>
        simp only [Except.map, reduceCtorEq, Except.error.injEq, Except.ok.injEq] at h2
      · exact .some h2
      · refine .some ⟨?_, options_same h.pluginOptions⟩
        simp only [IoEnv.essence, h1, h2, commandInfo_same h.commandInfo, h.printf, h.argv]

/-! ### The callbacks -/

theorem envSame_printf {e e' : IoEnv} (h : EnvSame rt.debug e e') : e.hasPrintf = e'.hasPrintf := by
  have : ∀ e : IoEnv, e.hasPrintf = (e.essence rt.debug).hasPrintf := fun _ => rfl
  rw [this, this e', h.1]

theorem makeEnv_same {a a' : OpenArgs} (h : SameInput rt.debug a a') :
    Mirrors (fun x y => match x, y with | .ok e, .ok e' => EnvSame rt.debug e e' | .error x, .error y => x = y | _, _ => False)
      (makeEnv rt a) (makeEnv rt a') := by
  unfold makeEnv
  rw [h.printf]
  have h1 := new_same (rt := rt) h
  refine Mirrors.bind (R := fun x y => match x, y with
    | .ok e, .ok e' => EnvSame rt.debug e e' | .error x, .error y => x = y | _, _ => False) ?_ ?_
  · generalize IoEnv.new rt a = x at h1
    generalize IoEnv.new rt a' = y at h1
    cases h1 with
    | none => exact fun s => ⟨rfl, trivial⟩
    | some h1 => exact .pure h1
  · intro x y hxy
    rcases x with e | e <;> rcases y with e' | e' <;> simp only at hxy
    · subst hxy
      refine (Mirrors.refl (R := Eq) (fun _ => rfl) _).bind ?_
      rintro _ _ -
      exact .pure rfl
    · exact .pure hxy

theorem makePlugin_same (rt : Rt) (b : Bool) {e e' : IoEnv} (h : EnvSame rt.debug e e') :
    Mirrors (fun x y => match x, y with | .ok p, .ok p' => PairSame rt.debug p p' | .error x, .error y => x = y | _, _ => False)
      (makePlugin rt b e) (makePlugin rt b e') := by
  unfold makePlugin
  have hc : e.commandInfo.command = e'.commandInfo.command := by
    have : ∀ e : IoEnv, e.commandInfo.command = (e.essence rt.debug).commandInfo.command := fun _ => rfl
    rw [this, this e', h.1]
  rw [hc]
  split
  · exact .pure rfl
  refine (open_same rt h).bind ?_
  intro x y hxy
  rcases x with e | e <;> rcases y with e' | e' <;> simp only at hxy
  · subst hxy
    refine (Mirrors.refl (R := Eq) (fun _ => rfl) _).bind ?_
    rintro _ _ -
    exact .pure rfl
  · exact .pure hxy

theorem pairSame_socket {p p' : Pair} (h : PairSame rt.debug p p') : p.socket = p'.socket := by
  have : ∀ p : Pair, p.socket = (p.essence rt.debug).socket := fun _ => rfl
  rw [this, this p', h]

theorem coreOpen_same (rt : Rt) {a a' : OpenArgs} (h : SameInput rt.debug a a') {st st' : State} (hs : StSame rt.debug st st') :
    Mirrors (fun x y => x.1 = y.1 ∧ StSame rt.debug x.2 y.2) (Core.open rt a st) (Core.open rt a' st') := by
  unfold Core.open
  refine (makeEnv_same h).catchUnwind.bind ?_
  rintro _ _ (hxy | _)
  · rename_i x y
    rcases x with e | e <;> rcases y with e' | e' <;> simp only at hxy
    · exact .pure ⟨hxy, hs⟩
    · have he : EnvSame rt.debug (st.env.getD e) (st'.env.getD e') := by
        have h1 := hs.1
        generalize st.env = x at h1
        generalize st'.env = y at h1
        rcases h1 with h1 | _
        · exact h1
        · exact hxy
      simp only [h.printf]
      refine (makePlugin_same rt _ he).catchUnwind.bind ?_
      have hs1 : StSame rt.debug { st with env := some (st.env.getD e) } { st' with env := some (st'.env.getD e') } :=
        ⟨.some he, hs.2⟩
      rintro _ _ (hxy | _)
      · rename_i x y
        rcases x with e | p <;> rcases y with e' | p' <;> simp only at hxy
        · exact .pure ⟨hxy, hs1⟩
        · simp only
          generalize hq : st.plugin = q
          generalize hq' : st'.plugin = q'
          have hqq := hs.2
          rw [hq, hq'] at hqq
          rcases hqq with h1 | _
          · have hd : p.drop = p'.drop := by unfold Pair.drop; rw [pairSame_socket hxy]
            simp only [hd]
            refine (Mirrors.refl (R := Eq) (fun _ => rfl) _).bind ?_
            rintro _ _ -
            exact .pure ⟨rfl, hs1.1, .some h1⟩
          · exact .pure ⟨rfl, hs1.1, .some hxy⟩
      · exact .pure ⟨rfl, hs1⟩
  · exact .pure ⟨rfl, hs⟩

theorem close_same {st st' : State} (hs : StSame rt.debug st st') : Core.close st = Core.close st' := by
  unfold Core.close
  have h1 := hs.2
  generalize st.plugin = x at h1
  generalize st'.plugin = y at h1
  rcases h1 with h1 | _
  · rename_i p p'
    have hd : p.close = p'.close := by unfold Pair.close; rw [pairSame_socket h1]
    simp only [hd]
  · rfl

theorem showVersion_same {st st' : State} (hs : StSame rt.debug st st') : Core.showVersion st = Core.showVersion st' := by
  unfold Core.showVersion
  have h1 := hs.1
  generalize st.env = x at h1
  generalize st'.env = y at h1
  rcases h1 with h1 | _
  · show (M.catchUnwind (do let _ ← writePieces _ _; pure ()) >>= _) = (M.catchUnwind (do let _ ← writePieces _ _; pure ()) >>= _)
    rw [envSame_printf h1]
  · rfl

theorem finish_same {e e' : IoEnv} (h : EnvSame rt.debug e e') : finish e = finish e' := by
  funext x
  unfold finish
  rw [envSame_printf h]

theorem log_same (rt : Rt) (f : Facility) (buf : Bytes) {st st' : State} (hs : StSame rt.debug st st') :
    Core.log rt f buf st = Core.log rt f buf st' := by
  unfold Core.log
  obtain ⟨h1, h2⟩ := hs
  generalize st.env = x at h1
  generalize st'.env = y at h1
  generalize st.plugin = p at h2
  generalize st'.plugin = p' at h2
  rcases h1 with h1 | _
  · rename_i e e'
    rcases h2 with h2 | _
    · rename_i p p'
      have key : (if !hint e.commandInfo f then pure LOG_OK else handler rt p buf f >>= finish e : M Int) =
          (if !hint e'.commandInfo f then pure LOG_OK else handler rt p' buf f >>= finish e') := by
        by_cases hf : f = .ttyin
        · subst hf
          have : ∀ (e : IoEnv) (p : Pair), (handler rt p buf .ttyin >>= finish e : M Int) = pure LOG_OK := fun _ _ => rfl
          rw [this, this]
          split <;> split <;> rfl
        · have hh : hint e.commandInfo f = hint e'.commandInfo f := by
            have : ∀ e : IoEnv, hint e.commandInfo f = hint (e.essence rt.debug).commandInfo f := by
              intro e; cases f <;> first | rfl | exact absurd rfl hf
            rw [this, this e', h1.1]
          have hp : handler rt p buf f = handler rt p' buf f := by
            cases f with
            | stdin =>
              show p.logStdin rt = p'.logStdin rt
              unfold Pair.logStdin
              rw [isExempt_same h2]
            | _ =>
              have : ∀ p : Pair, p.logOutput buf = (p.essence rt.debug).logOutput buf := fun _ => rfl
              first | rfl | (show p.logOutput buf = p'.logOutput buf; rw [this, this p', h2])
          rw [hh, hp, finish_same h1]
      exact congrArg (fun m : M Int => M.catchUnwind m >>= fun r => pure (r.getD LOG_DENY)) key
    · rfl
  · rcases h2 with h2 | _ <;> rfl

theorem changeWinsize_same (l c : Nat) {st st' : State} (hs : StSame rt.debug st st') :
    Core.changeWinsize l c st = Core.changeWinsize l c st' := by
  unfold Core.changeWinsize
  obtain ⟨h1, h2⟩ := hs
  generalize st.env = x at h1
  generalize st'.env = y at h1
  generalize st.plugin = p at h2
  generalize st'.plugin = p' at h2
  rcases h1 with h1 | _
  · rename_i e e'
    rcases h2 with h2 | _
    · rename_i p p'
      have key : (p.changeWinsize l c >>= finish e : M Int) = p'.changeWinsize l c >>= finish e' := by
        have : ∀ p : Pair, p.changeWinsize l c = (p.essence rt.debug).changeWinsize l c := fun _ => rfl
        rw [this, this p', h2, finish_same h1]
      exact congrArg (fun m : M Int => M.catchUnwind m >>= fun r => pure (r.getD LOG_DENY)) key
    · rfl
  · rcases h2 with h2 | _ <;> rfl

/-- Two calls that differ at most in what has no influence. -/
def SameCall (debug : Bool) : Call → Call → Prop
  | .open a, .open a' => SameInput debug a a'
  | c, c' => c = c'

/-- And two sequences of calls. -/
inductive SameCalls (debug : Bool) : List Call → List Call → Prop where
  | nil : SameCalls debug [] []
  | cons {c c' : Call} {cs cs' : List Call}  : SameCall debug c c' → SameCalls debug cs cs' → SameCalls debug (c :: cs) (c' :: cs')

theorem step_same (rt : Rt) {c c' : Call} (h : SameCall rt.debug c c') {st st' : State} (hs : StSame rt.debug st st') :
    Mirrors (fun x y => x.1 = y.1 ∧ StSame rt.debug x.2 y.2) (Core.step rt c st) (Core.step rt c' st') := by
  by_cases ho : ∃ a a', c = .open a ∧ c' = .open a'
  · obtain ⟨a, a', rfl, rfl⟩ := ho
    exact coreOpen_same rt h hs
  · have hc : c = c' := by
      unfold SameCall at h
      split at h
      · exact absurd ⟨_, _, rfl, rfl⟩ ho
      · exact h
    subst hc
    cases c with
    | «open» a => exact absurd ⟨a, a, rfl, rfl⟩ ho
    | close =>
      simp only [Core.step, close_same hs]
      refine Mirrors.bind (R := fun x y => x = ⟨none, none⟩ ∧ y = ⟨none, none⟩) ?_ ?_
      · unfold Core.close
        cases st'.plugin with
        | none => exact .pure ⟨rfl, rfl⟩
        | some p =>
          refine (Mirrors.refl (R := Eq) (fun _ => rfl) p.close).bind ?_
          rintro _ _ -
          exact .pure ⟨rfl, rfl⟩
      · rintro _ _ ⟨rfl, rfl⟩
        exact .pure ⟨rfl, .none, .none⟩
    | showVersion =>
      simp only [Core.step, showVersion_same hs]
      refine (Mirrors.refl (R := Eq) (fun _ => rfl) _).bind ?_
      rintro _ _ rfl
      exact .pure ⟨rfl, hs⟩
    | log f buf =>
      simp only [Core.step, log_same rt f buf hs]
      refine (Mirrors.refl (R := Eq) (fun _ => rfl) _).bind ?_
      rintro _ _ rfl
      exact .pure ⟨rfl, hs⟩
    | changeWinsize l cc =>
      simp only [Core.step, changeWinsize_same l cc hs]
      refine (Mirrors.refl (R := Eq) (fun _ => rfl) _).bind ?_
      rintro _ _ rfl
      exact .pure ⟨rfl, hs⟩

theorem run_same (rt : Rt) : ∀ {cs cs' : List Call}, SameCalls rt.debug cs cs' → ∀ {st st' : State}, StSame rt.debug st st' →
    Mirrors (fun x y => x.1 = y.1 ∧ StSame rt.debug x.2 y.2) (Core.run rt cs st) (Core.run rt cs' st')
  | _, _, .nil, _, _, hs => .pure ⟨rfl, hs⟩
  | _, _, .cons h1 h2, st, st', hs => by
    unfold Core.run
    refine (step_same rt h1 hs).bind ?_
    rintro ⟨r, st1⟩ ⟨r', st1'⟩ ⟨hr, hs1⟩
    simp only at hr hs1
    subst hr
    refine (run_same rt h2 hs1).bind ?_
    rintro ⟨rs, st2⟩ ⟨rs', st2'⟩ ⟨hr, hs2⟩
    simp only at hr hs2
    subst hr
    exact .pure ⟨rfl, hs2⟩

/-- How a run ends: with the return values of the callbacks, or not at all. -/
def endOf : Out (List Int × State) → Out (List Int)
  | .ok (rs, _) => .ok rs
  | .panic => .panic
  | .killed => .killed

/-- C74: whatever the operating system answers, in any sequence of callbacks, what the plugin does and returns depends
on the arguments of `open` only through the values of the listed keys, the API version, the command line and the
presence of the printf function.  Other keys, the order of the entries, entries that a later one replaces, and the
environment of the invoking user have no influence at all. -/
theorem C74_depends (rt : Rt) {cs cs' : List Call} (h : SameCalls rt.debug cs cs') (s : Sched) :
    (Core.run rt cs Core.init s).2.1 = (Core.run rt cs' Core.init s).2.1 ∧
      endOf (Core.run rt cs Core.init s).1 = endOf (Core.run rt cs' Core.init s).1 := by
  obtain ⟨h1, h2⟩ := run_same rt h (st := Core.init) (st' := Core.init) ⟨.none, .none⟩ s
  refine ⟨by rw [h1], ?_⟩
  rcases h3 : (Core.run rt cs Core.init s).1 with ⟨rs, st⟩ | _ | _ <;>
    rcases h4 : (Core.run rt cs' Core.init s).1 with ⟨rs', st'⟩ | _ | _ <;> rw [h3, h4] at h2 <;>
    simp only [endOf] at h2 ⊢
  exact congrArg _ h2.1

/-- C74: in particular the user's environment variables. -/
theorem C74_user_env (rt : Rt) (a : OpenArgs) (vars : Option (List Bytes)) (cs : List Call) (s : Sched) :
    (Core.run rt (.open a :: cs) Core.init s).2.1 = (Core.run rt (.open { a with userEnv := vars } :: cs) Core.init s).2.1 ∧
      endOf (Core.run rt (.open a :: cs) Core.init s).1 =
        endOf (Core.run rt (.open { a with userEnv := vars } :: cs) Core.init s).1 := by
  refine C74_depends rt (.cons ?_ ?_) s
  · exact ⟨rfl, rfl, rfl, fun _ _ _ => Iff.rfl, fun _ _ _ => Iff.rfl, fun _ _ _ => Iff.rfl, fun _ _ _ => Iff.rfl⟩
  · induction cs with
    | nil => exact .nil
    | cons c cs ih =>
      refine .cons ?_ ih
      cases c <;> first | rfl | exact ⟨rfl, rfl, rfl, fun _ _ _ => Iff.rfl, fun _ _ _ => Iff.rfl, fun _ _ _ => Iff.rfl, fun _ _ _ => Iff.rfl⟩

/-- Arguments that look quite different: other environment variables, entries in another order, entries that are
overridden by later ones, keys nobody reads and entries without a value. -/
def reworded : OpenArgs :=
  { sampleArgs with
    settings := some [b! "progname=sudo", b! "timeout=never", b! "plugin_dir=/q", b! "plugin_path=/p/sudo_pair.so",
      b! "plugin_dir=/p", b! "debug_level=x"]
    userInfo := some [b! "user=u", b! "host=h", b! "cwd=/home/u", b! "egid=0", b! "euid=0", b! "gid=1000", b! "umask=0777",
      b! "groups=1000,27", b! "pgid=41", b! "pid=42", b! "ppid=40", b! "uid=0", b! "sid=1", b! "uid=1000",
      b! "tty=/dev/pts/0"]
    commandInfo := some [b! "chroot=/jail", b! "command=/bin/ls", b! "runas_uid=0", b! "runas_gid=0",
      b! "runas_groups=0", b! "iolog_stdout=true", b! "iolog_stderr=true", b! "iolog_ttyout=true", b! "iolog_stdin=true",
      b! "umask=0", b! "noexec=true"]
    userEnv := some [b! "HOME=/root", b! "LD_PRELOAD=/x.so"]
    pluginOptions := some [b! "socketdir=/tmp", b! "gids"] }

theorem agree_of_getBytes {keys : List Bytes} {vec vec' : Option (List Bytes)}
    (h : ∀ k ∈ keys, (OptionMap.fromRaw vec).getBytes k = (OptionMap.fromRaw vec').getBytes k) : Agree keys vec vec' := by
  intro k hk v
  rw [← fromRaw_getBytes, ← fromRaw_getBytes, h k hk]

theorem reworded_alike (debug : Bool) : SameInput debug sampleArgs reworded := by
  refine ⟨rfl, rfl, rfl, ?_, ?_, ?_, ?_⟩ <;> apply agree_of_getBytes
  · decide
  · decide
  · cases debug <;> decide
  · decide

/-- The hypotheses of `C74_depends` are met by a whole session, with different arguments; the session goes all the way
to an approval and a logged write. -/
example : SameCalls sampleRt.debug [.open sampleArgs, .log .stdout (b! "hi"), .close] [.open reworded, .log .stdout (b! "hi"), .close] ∧
    sampleArgs ≠ reworded ∧
    endOf (Core.run sampleRt [.open reworded, .log .stdout (b! "hi"), .close] Core.init (List.replicate 80 (coop 121))).1 =
      .ok [1, 1, 0] :=
  ⟨.cons (reworded_alike _) (.cons rfl (.cons rfl .nil)), fun h => by
    have := congrArg OpenArgs.userEnv h
    exact absurd this (by decide), by decide +kernel⟩

/-! ### Every one of them has an influence -/

/-- What can be seen of a process: its system calls, and how the callbacks end. -/
def behaviour (rt : Rt) (cs : List Call) (s : Sched) : List Sys × Out (List Int) :=
  ((Core.run rt cs Core.init s).2.1.map Ev.call, endOf (Core.run rt cs Core.init s).1)

/-- The value of a key in the given vector makes a difference, with everything else being the same. -/
def Matters (put : OpenArgs → Option (List Bytes) → OpenArgs) (debug : Bool) (k : Bytes) : Prop :=
  ∃ rt a vec vec' cs s, rt.debug = debug ∧ (∀ k', k' ≠ k → ∀ v, Value vec k' v ↔ Value vec' k' v) ∧
    behaviour rt (.open (put a vec) :: cs) s ≠ behaviour rt (.open (put a vec') :: cs) s

theorem agree_others {es : List Bytes} {k v v' : Bytes} (hk : (61 : UInt8) ∉ k) {k' : Bytes} (hne : k' ≠ k) (w : Bytes) :
    Value (some (es ++ [k ++ 61 :: v])) k' w ↔ Value (some (es ++ [k ++ 61 :: v'])) k' w := by
  rw [← fromRaw_getBytes, ← fromRaw_getBytes]
  have h1 : ∀ v, splitFirst 61 (k ++ 61 :: v) = some (k, v) := by
    intro v
    clear hne
    induction k with
    | nil => simp [splitFirst]
    | cons b k ih =>
      have hb : b ≠ 61 := fun h => hk (by simp [h])
      simp [splitFirst, hb, ih (fun h => hk (List.mem_cons_of_mem _ h))]
  have h2 : ∀ v, (OptionMap.fromRaw (some (es ++ [k ++ 61 :: v]))).getBytes k' = (OptionMap.fromRaw (some es)).getBytes k' := by
    intro v
    simp only [OptionMap.fromRaw, List.foldl_append, List.foldl_cons, List.foldl_nil, OptionMap.splitEntry, h1]
    generalize List.foldl _ _ es = m
    unfold OptionMap.insert OptionMap.getBytes
    rw [List.find?_cons_of_neg (by simpa using Ne.symm hne), List.find?_filter]
    congr 2
    funext e
    by_cases he : e.1 = k'
    · simp [he, hne]
    · simp [he]
  rw [h2, h2]

/-- A system on which everything works, the prompts show all variables, and the pair agrees. -/
def showing : Answer
  | .readFile _ => some (b! "%b %B %C %d %h %H %g %p %u %U %W")
  | e => coop 121 e

/-- The value `v` or `v'` of key `k`, after the given other entries, makes a difference. -/
def tells (put : OpenArgs → Option (List Bytes) → OpenArgs) (rt : Rt) (es : List Bytes) (k v v' : Bytes) (cs : List Call) :
    Bool :=
  decide ((61 : UInt8) ∉ k) &&
  decide (behaviour rt (.open (put sampleArgs (some (es ++ [k ++ 61 :: v]))) :: cs) (List.replicate 80 showing) ≠
    behaviour rt (.open (put sampleArgs (some (es ++ [k ++ 61 :: v']))) :: cs) (List.replicate 80 showing))

theorem matters_of_tells {put : OpenArgs → Option (List Bytes) → OpenArgs} {rt : Rt} {es : List Bytes} {k v v' : Bytes}
    {cs : List Call} (h : tells put rt es k v v' cs = true) : Matters put rt.debug k := by
  unfold tells at h
  rw [Bool.and_eq_true, decide_eq_true_eq, decide_eq_true_eq] at h
  exact ⟨rt, sampleArgs, _, _, cs, _, rfl, fun k' hk' w => agree_others h.1 hk' w, h.2⟩

def putSettings (a : OpenArgs) (vec : Option (List Bytes)) : OpenArgs := { a with settings := vec }
def putUser (a : OpenArgs) (vec : Option (List Bytes)) : OpenArgs := { a with userInfo := vec }
def putCommand (a : OpenArgs) (vec : Option (List Bytes)) : OpenArgs := { a with commandInfo := vec }
def putOptions (a : OpenArgs) (vec : Option (List Bytes)) : OpenArgs := { a with pluginOptions := vec }

/-- Values that make a difference. -/
def settingsProbes : List (Bytes × Bytes × Bytes) :=
  [(b! "plugin_dir", b! "a", [255]), (b! "plugin_path", b! "a", [255]), (b! "progname", b! "a", b! "b"),
    (b! "network_addrs", b! "1/1", b! "1"), (b! "runas_group", b! "a", [255]), (b! "sudoedit", b! "true", b! "false"),
    (b! "runas_user", b! "a", b! "b"), (b! "prompt", b! "a", b! "b"), (b! "login_shell", b! "true", b! "false"),
    (b! "run_shell", b! "true", b! "false"), (b! "set_home", b! "true", b! "false"),
    (b! "preserve_environment", b! "true", b! "false"), (b! "preserve_groups", b! "true", b! "false"),
    (b! "ignore_ticket", b! "true", b! "false"), (b! "noninteractive", b! "true", b! "false"),
    (b! "login_class", b! "a", b! "b"), (b! "selinux_role", b! "a", b! "b"), (b! "selinux_type", b! "a", b! "b"),
    (b! "bsd_auth_type", b! "a", b! "b"), (b! "closefrom", b! "1", b! "2")]

def userProbes : List (Bytes × Bytes × Bytes) :=
  [(b! "cwd", b! "a", b! "b"), (b! "egid", b! "1", b! "x"), (b! "euid", b! "0", b! "1000"), (b! "gid", b! "1", b! "2"),
    (b! "groups", b! "1", b! "x"), (b! "host", b! "a", b! "b"), (b! "pgid", b! "1", b! "x"), (b! "pid", b! "1", b! "2"),
    (b! "ppid", b! "1", b! "x"), (b! "uid", b! "1", b! "2"), (b! "user", b! "a", b! "b"), (b! "cols", b! "1", b! "2"),
    (b! "lines", b! "1", b! "2"), (b! "tty", b! "a", b! "b")]

def commandProbes : List (Bytes × List Bytes × Bytes × Bytes) :=
  [(b! "command", [], b! "/bin/ls", b! "/usr/bin/sudo_approve"), (b! "runas_uid", [], b! "0", b! "1001"),
    (b! "runas_gid", [b! "runas_groups=5"], b! "0", b! "5"), (b! "runas_euid", [], b! "0", b! "1001"),
    (b! "runas_egid", [b! "runas_groups=5"], b! "0", b! "5"), (b! "runas_groups", [b! "runas_gid=5"], b! "0", b! "5"),
    (b! "cwd", [], b! "a", b! "b"), (b! "iolog_stdin", [], b! "true", b! "false"),
    (b! "iolog_stdout", [b! "iolog_stdout=false"], b! "true", b! "false"),
    (b! "iolog_stderr", [b! "iolog_stdout=false"], b! "true", b! "false"),
    (b! "iolog_ttyout", [b! "iolog_stdout=false"], b! "true", b! "false")]

def optionProbes : List (Bytes × Bytes × Bytes) :=
  [(b! "binary_path", b! "a", b! "b"), (b! "user_prompt_path", b! "a", b! "b"), (b! "pair_prompt_path", b! "a", b! "b"),
    (b! "socket_dir", b! "a", b! "b"), (b! "gids_enforced", b! "0", b! "5"), (b! "gids_exempted", b! "5", b! "27")]

def probeRt (debug : Bool) : Rt := ⟨0, 0, debug, fun _ => some [], 1024, if debug then .debug else .info⟩

/-- C74: the lists are as short as possible: for each of the keys there are sessions that differ in its value only, in
which the plugin does not do the same.  (`preserve_groups` of `command_info` in debug builds.) -/
theorem C74_needed :
    (∀ k ∈ settingsKeys, Matters putSettings false k) ∧ (∀ k ∈ userKeys, Matters putUser false k) ∧
    (∀ k ∈ commandKeys false, Matters putCommand false k) ∧ Matters putCommand true (b! "preserve_groups") ∧
    ∀ k ∈ optionKeys, Matters putOptions false k := by
  refine ⟨?_, ?_, ?_, ?_, ?_⟩
  · have h1 : settingsKeys = settingsProbes.map (·.1) := by decide
    have h2 : (settingsProbes.all fun x => tells putSettings (probeRt false) (sampleArgs.settings.getD []) x.1 x.2.1 x.2.2 []) = true := by
      decide +kernel
    rw [List.all_eq_true] at h2
    rw [h1]
    intro k hk
    obtain ⟨x, hx, rfl⟩ := List.mem_map.1 hk
    exact matters_of_tells (h2 x hx)
  · have h1 : userKeys = userProbes.map (·.1) := by decide
    have h2 : (userProbes.all fun x => tells putUser (probeRt false) (sampleArgs.userInfo.getD []) x.1 x.2.1 x.2.2 []) = true := by
      decide +kernel
    rw [List.all_eq_true] at h2
    rw [h1]
    intro k hk
    obtain ⟨x, hx, rfl⟩ := List.mem_map.1 hk
    exact matters_of_tells (h2 x hx)
  · have h1 : commandKeys false = commandProbes.map (·.1) := by decide
    have h2 : (commandProbes.all fun x => tells putCommand (probeRt false)
        ([b! "command=/bin/ls", b! "runas_uid=0", b! "runas_gid=0", b! "iolog_stdout=true"] ++ x.2.1) x.1 x.2.2.1 x.2.2.2
        [.log .stdin []]) = true := by
      decide +kernel
    rw [List.all_eq_true] at h2
    rw [h1]
    intro k hk
    obtain ⟨x, hx, rfl⟩ := List.mem_map.1 hk
    exact matters_of_tells (h2 x hx)
  · have h2 : tells putCommand (probeRt true) (sampleArgs.commandInfo.getD []) (b! "preserve_groups") (b! "true") (b! "false") [] =
        true := by decide +kernel
    exact matters_of_tells h2
  · have h1 : optionKeys = optionProbes.map (·.1) := by decide
    have h2 : (optionProbes.all fun x => tells putOptions (probeRt false) [] x.1 x.2.1 x.2.2 []) = true := by
      decide +kernel
    rw [List.all_eq_true] at h2
    rw [h1]
    intro k hk
    obtain ⟨x, hx, rfl⟩ := List.mem_map.1 hk
    exact matters_of_tells (h2 x hx)

end SudoPair
