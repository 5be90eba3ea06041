import Verif.Lemmas.Options
import Verif.Spec.Environment
import Verif.Props.Version
import Verif.Lemmas.Scenario
/-
C32, C33, C52: typed options.
-/
namespace SudoPair

open Spec

/-! ### C32 -/

/-- C32: the six plugin options and their documented defaults (README, lib.rs:676-722). -/
theorem C32_plugin_options (vec : Option (List Bytes)) :
    PluginOptionsFrom vec (.ofMap (.fromRaw vec)) := by
  refine ⟨?_, ?_, ?_, ?_, ?_, ?_⟩
  · exact getD_reads parseStr_iff ..
  · exact getD_reads parseStr_iff ..
  · exact getD_reads parseStr_iff ..
  · exact getD_reads parseStr_iff ..
  · exact getD_reads (parseList_iff (parseUInt_iff 32)) ..
  · exact getD_reads (parseList_iff (parseUInt_iff 32)) ..

/-- C32: a malformed `gids_exempted` exempts nobody. -/
theorem C32_malformed_exempted (vec : Option (List Bytes)) (v : Bytes)
    (hv : Value vec (b! "gids_exempted") v) (hbad : ¬ ∃ xs, DenotesIds v xs) :
    (PluginOptions.ofMap (.fromRaw vec)).gidsExempted = [] := by
  refine (C32_plugin_options vec).2.2.2.2.2.2 ?_
  rintro ⟨w, a, h1, h2, h3⟩
  have e1 := (fromRaw_getBytes ..).2 h1
  have e2 := (fromRaw_getBytes ..).2 hv
  rw [e1] at e2
  simp only [Option.some.injEq] at e2
  subst e2
  exact hbad ⟨a, h3⟩

/-- Non-vacuity: a configuration setting two of the options, one of them twice. -/
example : PluginOptions.ofMap (.fromRaw (some [b! "gids_enforced=1", b! "binary_path=/bin/ok",
      b! "gids_enforced=10,20", b! "gids_exempted=7,x"])) =
    ⟨b! "/bin/ok", b! "/etc/sudo_pair.prompt.user", b! "/etc/sudo_pair.prompt.pair",
     b! "/var/run/sudo_pair", [10, 20], []⟩ := by decide

/-! ### C33 -/

/-- C33 (partial): if the configured `gids_enforced` is well-formed, every listed gid is enforced.
Full statement: also when *another* element of the list is malformed; that is false, see
`C33_counterexample`. -/
theorem C33_enforced_partial (vec : Option (List Bytes)) (v : Bytes) (xs : List Nat)
    (hv : Value vec (b! "gids_enforced") v) (hwf : DenotesIds v xs) :
    ∀ g, g ∈ (PluginOptions.ofMap (.fromRaw vec)).gidsEnforced ↔ g ∈ xs := by
  have hval : (OptionMap.fromRaw vec).getD (parseList (parseUInt 32)) (b! "gids_enforced") [0] = xs := by
    refine (C32_plugin_options vec).2.2.2.2.1.1 v xs hv ?_ hwf
    exact utf8_of_ascii (denotesList_ascii (by decide) (fun _ _ h => denotesU_ascii h) hwf)
  intro g
  exact Eq.to_iff (congrArg (g ∈ ·) hval)

/-- C33 fails: with `gids_enforced=27,wheel` the listed gid 27 is not enforced (the option falls back
to `[0]`); neither does the sample configuration's `gids_enforced=` enforce nothing. -/
theorem C33_counterexample :
    (27 ∉ (PluginOptions.ofMap (.fromRaw (some [b! "gids_enforced=27,wheel"]))).gidsEnforced) ∧
    (PluginOptions.ofMap (.fromRaw (some [b! "gids_enforced="]))).gidsEnforced = [0] := by decide

/-! ### C52 -/

theorem Except.bind_ok_iff {ε α β : Type} {x : Except ε α} {f : α → Except ε β} {b : β} :
    (x >>= f) = .ok b ↔ ∃ a, x = .ok a ∧ f a = .ok b := by
  cases x with
  | error e => simp [bind, Except.bind]
  | ok a => simp [bind, Except.bind]

/-- C52, `user_info`: if conversion succeeds then every required key is present, well-formed and
denotes the field, and the optional ones are read with their documented defaults
(user_info.rs:25-95).  `C52_user_info_succeeds` says when it succeeds. -/
theorem C52_user_info (vec : Option (List Bytes)) (ui : UserInfo) :
    UserInfo.tryFrom (.fromRaw vec) = .ok ui →
      UserInfoFrom vec ui := by
  intro h
  unfold UserInfo.tryFrom at h
  simp only [Except.bind_ok_iff] at h
  obtain ⟨cwd, h1, egid, h2, euid, h3, gid, h4, groups, h5, host, h6, pgid, h7, pid, h8, ppid, h9,
    uid, h10, user, h11, h12⟩ := h
  simp only [pure, Except.pure, Except.ok.injEq] at h12
  subst h12
  refine ⟨(get_ok_iff parseStr_iff ..).1 h1, (get_ok_iff (parseUInt_iff 32) ..).1 h2,
    (get_ok_iff (parseUInt_iff 32) ..).1 h3, (get_ok_iff (parseUInt_iff 32) ..).1 h4,
    (get_ok_iff (parseList_iff (parseUInt_iff 32)) ..).1 h5, (get_ok_iff parseStr_iff ..).1 h6,
    (get_ok_iff (parseInt_iff 32) ..).1 h7, (get_ok_iff (parseInt_iff 32) ..).1 h8,
    (get_ok_iff (parseInt_iff 32) ..).1 h9, (get_ok_iff (parseUInt_iff 32) ..).1 h10,
    (get_ok_iff parseStr_iff ..).1 h11, fun _ => get?_readsOpt parseStr_iff .., fun _ => get?_readsOpt parseStr_iff ..,
    getD_reads (parseUInt_iff 64) .., getD_reads (parseUInt_iff 64) ..,
    getD_reads (parseInt_iff 32) .., getD_reads (parseInt_iff 32) ..⟩

/-- C52: `user_info` is accepted exactly if every required key is present and well-formed. -/
theorem C52_user_info_succeeds (vec : Option (List Bytes)) :
    (∃ ui, UserInfo.tryFrom (.fromRaw vec) = .ok ui) ↔
      (∃ x, Required vec (b! "cwd") DenotesS x) ∧
      (∃ x, Required vec (b! "egid") (DenotesU 32) x) ∧
      (∃ x, Required vec (b! "euid") (DenotesU 32) x) ∧
      (∃ x, Required vec (b! "gid") (DenotesU 32) x) ∧
      (∃ x, Required vec (b! "groups") DenotesIds x) ∧
      (∃ x, Required vec (b! "host") DenotesS x) ∧
      (∃ x, Required vec (b! "pgid") (DenotesI 32) x) ∧
      (∃ x, Required vec (b! "pid") (DenotesI 32) x) ∧
      (∃ x, Required vec (b! "ppid") (DenotesI 32) x) ∧
      (∃ x, Required vec (b! "uid") (DenotesU 32) x) ∧
      (∃ x, Required vec (b! "user") DenotesS x) := by
  constructor
  · rintro ⟨ui, h⟩
    obtain ⟨h1, h2, h3, h4, h5, h6, h7, h8, h9, h10, h11, _⟩ := C52_user_info vec ui h
    exact ⟨⟨_, h1⟩, ⟨_, h2⟩, ⟨_, h3⟩, ⟨_, h4⟩, ⟨_, h5⟩, ⟨_, h6⟩, ⟨_, h7⟩, ⟨_, h8⟩, ⟨_, h9⟩, ⟨_, h10⟩,
      ⟨_, h11⟩⟩
  · rintro ⟨⟨a1, h1⟩, ⟨a2, h2⟩, ⟨a3, h3⟩, ⟨a4, h4⟩, ⟨a5, h5⟩, ⟨a6, h6⟩, ⟨a7, h7⟩, ⟨a8, h8⟩, ⟨a9, h9⟩,
      ⟨a10, h10⟩, ⟨a11, h11⟩⟩
    unfold UserInfo.tryFrom
    simp only [Except.bind_ok_iff]
    exact ⟨_, a1, (get_ok_iff parseStr_iff ..).2 h1, a2, (get_ok_iff (parseUInt_iff 32) ..).2 h2,
      a3, (get_ok_iff (parseUInt_iff 32) ..).2 h3, a4, (get_ok_iff (parseUInt_iff 32) ..).2 h4,
      a5, (get_ok_iff (parseList_iff (parseUInt_iff 32)) ..).2 h5,
      a6, (get_ok_iff parseStr_iff ..).2 h6, a7, (get_ok_iff (parseInt_iff 32) ..).2 h7,
      a8, (get_ok_iff (parseInt_iff 32) ..).2 h8, a9, (get_ok_iff (parseInt_iff 32) ..).2 h9,
      a10, (get_ok_iff (parseUInt_iff 32) ..).2 h10, a11, (get_ok_iff parseStr_iff ..).2 h11, rfl⟩

/-- C52, `command_info`: every field is what its key denotes, or its documented default
(command_info.rs:28-236). -/
theorem C52_command_info (euid egid : Nat) (vec : Option (List Bytes)) :
    CommandInfoFrom euid egid vec (CommandInfo.tryFrom euid egid (.fromRaw vec)) := by
  refine ⟨?_, ?_, ?_, ?_, ?_, ?_, ?_, ?_, ?_, ?_, ?_, ?_, ?_, ?_, ?_, ?_, ?_, ?_, ?_, ?_, ?_, ?_, ?_, ?_, ?_, ?_, ?_, ?_, ?_, ?_, ?_, ?_, ?_, ?_, ?_, ?_, ?_⟩
  all_goals first
    | exact getD_reads parseStr_iff ..
    | exact getD_reads (parseUInt_iff _) ..
    | exact fun _ => get?_readsOpt parseStr_iff ..
    | exact fun _ => get?_readsOpt (parseUInt_iff _) ..
    | exact getD_reads parseBool_iff ..
    | exact fun _ => get?_readsOpt parseBool_iff ..
    | exact getD_reads (parseList_iff (parseInt_iff 32)) ..
    | exact fun _ => get?_readsOpt (parseList_iff (parseUInt_iff 32)) ..

theorem parseNetAddr_ok {parseIp : Bytes → Option Bytes} {s : Bytes} {n : NetAddr} :
    parseNetAddr parseIp s = .ok n ↔ DenotesNet parseIp s n := by
  unfold parseNetAddr DenotesNet
  cases hs : splitFirst 47 s with
  | none =>
    have := splitFirst_none.1 hs
    constructor
    · intro h; simp only at h; split at h <;> cases h
    · rintro ⟨a, m, rfl, _⟩; simp at this
  | some kv =>
    obtain ⟨a, m⟩ := kv
    have h' := splitFirst_some.1 hs
    constructor
    · intro h
      simp only at h
      split at h
      · simp at h
      · rename_i a' ha
        split at h
        · simp at h
        · rename_i m' hm
          simp only [PR.ok.injEq] at h
          subst h
          exact ⟨a, m, h'.1, h'.2, ha, hm⟩
    · rintro ⟨a', m', h1, h2, h3, h4⟩
      have := splitFirst_some.2 ⟨h1, h2⟩
      rw [hs] at this
      simp only [Option.some.injEq, Prod.mk.injEq] at this
      obtain ⟨rfl, rfl⟩ := this
      simp [h3, h4]

theorem parseNetAll_ok {parseIp : Bytes → Option Bytes} {es : List Bytes} {xs : List NetAddr} :
    parseNetAll parseIp es = .ok xs ↔
      es.length = xs.length ∧ ∀ q ∈ es.zip xs, parseNetAddr parseIp q.1 = .ok q.2 := by
  induction es generalizing xs with
  | nil => cases xs <;> simp [parseNetAll]
  | cons e es ih =>
    cases xs with
    | nil =>
      simp only [parseNetAll]
      split <;> simp
      split <;> simp
    | cons x xs =>
      simp only [List.length_cons, List.zip_cons_cons, List.mem_cons, forall_eq_or_imp,
        Nat.add_right_cancel_iff, parseNetAll]
      cases hn : parseNetAddr parseIp e with
      | panic => simp
      | err => simp
      | ok y =>
        simp only [PR.ok.injEq]
        cases hr : parseNetAll parseIp es with
        | panic =>
          simp only [reduceCtorEq, false_iff]
          rintro ⟨h1, h2, h3⟩
          have := (ih (xs := xs)).2 ⟨h1, h3⟩
          rw [hr] at this; simp at this
        | err =>
          simp only [reduceCtorEq, false_iff]
          rintro ⟨h1, h2, h3⟩
          have := (ih (xs := xs)).2 ⟨h1, h3⟩
          rw [hr] at this; simp at this
        | ok ys =>
          simp only [PR.ok.injEq, List.cons.injEq]
          constructor
          · rintro ⟨rfl, rfl⟩
            have := ih.1 hr
            exact ⟨this.1, rfl, this.2⟩
          · rintro ⟨h1, h2, h3⟩
            have := (ih (xs := xs)).2 ⟨h1, h3⟩
            rw [hr] at this; simp at this
            exact ⟨h2, this⟩

theorem parseNetAddrs_ok {parseIp : Bytes → Option Bytes} {s : Bytes} {xs : List NetAddr} :
    parseNetAddrs parseIp s = .ok xs ↔ DenotesList 32 (DenotesNet parseIp) s xs := by
  unfold parseNetAddrs DenotesList
  rw [parseNetAll_ok]
  constructor
  · rintro ⟨h1, h2⟩
    cases hs : splitOn 32 s with
    | nil => exact absurd hs (splitOn_ne_nil _ _)
    | cons first rest =>
      obtain ⟨h3, h4⟩ := splitOn_eq_cons.1 hs
      rw [hs] at h1 h2
      exact ⟨first, rest, h3, h4, h1, fun q hq => parseNetAddr_ok.1 (h2 q hq)⟩
  · rintro ⟨first, rest, h3, h4, h1, h2⟩
    rw [splitOn_eq_cons.2 ⟨h3, h4⟩]
    exact ⟨h1, fun q hq => parseNetAddr_ok.2 (h2 q hq)⟩

theorem getNetAddrs_reads {parseIp : Bytes → Option Bytes} {vec : Option (List Bytes)}
    {l : List NetAddr} (h : getNetAddrs parseIp (.fromRaw vec) = some l) :
    Reads vec (b! "network_addrs") (DenotesList 32 (DenotesNet parseIp)) [] l := by
  unfold getNetAddrs at h
  constructor
  · intro v a h1 h2 h3
    rw [(getStr_iff ..).2 ⟨h1, h2⟩] at h
    simp only [parseNetAddrs_ok.2 h3, Option.some.injEq] at h
    exact h.symm
  · intro hno
    cases hs : (OptionMap.fromRaw vec).getStr (b! "network_addrs") with
    | none => rw [hs] at h; simpa using h.symm
    | some v =>
      rw [hs] at h
      obtain ⟨h1, h2⟩ := (getStr_iff ..).1 hs
      simp only at h
      split at h
      · rename_i l' hl
        exact absurd ⟨v, l', h1, h2, parseNetAddrs_ok.1 hl⟩ hno
      · simpa using h.symm
      · simp at h

/-- C52, `settings` (settings.rs:28-165). -/
theorem C52_settings (parseIp : Bytes → Option Bytes) (vec : Option (List Bytes)) (st : Settings) :
    Settings.tryFrom parseIp (.fromRaw vec) = some (.ok st) →
      SettingsFrom parseIp vec st := by
  intro h
  unfold Settings.tryFrom at h
  simp only at h
  split at h
  · simp at h
  · rename_i r pluginDir pluginPath progname hreq
    split at h
    · simp at h
    · rename_i addrs haddrs
      simp only [Option.some.injEq, Except.ok.injEq] at h
      subst h
      simp only [Except.bind_ok_iff] at hreq
      obtain ⟨d, h1, p, h2, n, h3, h4⟩ := hreq
      simp only [pure, Except.pure, Except.ok.injEq, Prod.mk.injEq] at h4
      obtain ⟨rfl, rfl, rfl⟩ := h4
      refine ⟨(get_ok_iff parseStr_iff ..).1 h1, (get_ok_iff parseStr_iff ..).1 h2,
        (get_ok_iff parseStr_iff ..).1 h3, getNetAddrs_reads haddrs, ?_⟩
      refine ⟨?_, ?_, ?_, ?_, ?_, ?_, ?_, ?_, ?_, ?_, ?_, ?_, ?_, ?_, ?_, ?_, ?_, ?_, ?_, ?_, ?_, ?_⟩
      all_goals first
        | exact fun _ => get?_readsOpt parseStr_iff ..
        | exact fun _ => get?_readsOpt (parseUInt_iff _) ..
        | exact getD_reads parseBool_iff ..

/-- `C52_settings_succeeds`, with the `network_addrs` panic as the model has it. -/
theorem settings_succeeds (parseIp : Bytes → Option Bytes) (vec : Option (List Bytes)) :
    (∃ st, Settings.tryFrom parseIp (.fromRaw vec) = some (.ok st)) ↔
      (∃ x, Required vec (b! "plugin_dir") DenotesS x) ∧
      (∃ x, Required vec (b! "plugin_path") DenotesS x) ∧
      (∃ x, Required vec (b! "progname") DenotesS x) ∧
      getNetAddrs parseIp (.fromRaw vec) ≠ none := by
  constructor
  · rintro ⟨st, h⟩
    obtain ⟨h1, h2, h3, _⟩ := C52_settings parseIp vec st h
    refine ⟨⟨_, h1⟩, ⟨_, h2⟩, ⟨_, h3⟩, ?_⟩
    intro hn
    unfold Settings.tryFrom at h
    simp only at h
    split at h
    · simp at h
    · rw [hn] at h; simp at h
  · rintro ⟨⟨a1, h1⟩, ⟨a2, h2⟩, ⟨a3, h3⟩, h4⟩
    unfold Settings.tryFrom
    simp only [(get_ok_iff parseStr_iff ..).2 h1, (get_ok_iff parseStr_iff ..).2 h2,
      (get_ok_iff parseStr_iff ..).2 h3]
    cases hn : getNetAddrs parseIp (.fromRaw vec) with
    | none => exact absurd hn h4
    | some l => exact ⟨_, rfl⟩

/-- C52: the environment of a session mirrors the arguments of `open`, each in its own place: API
version, command line, and the five vectors. -/
theorem C52_environment {rt : Rt} {a : OpenArgs} {env : IoEnv} (h : IoEnv.new rt a = some (.ok env)) :
    EnvFrom rt a env := by
  unfold IoEnv.new at h
  split at h
  · simp at h
  rename_i v hv
  split at h
  · simp at h
  · simp at h
  rename_i st hst
  split at h
  · simp at h
  rename_i ui hui
  simp only [Option.some.injEq, Except.ok.injEq] at h
  subst h
  have hver : v = Version.fromFfi a.version := by
    unfold IoEnv.checkVersion at hv
    split at hv
    · simpa using hv.symm
    · simp at hv
  subst hver
  refine ⟨fromFfi_major _, fromFfi_minor _, rfl, C52_settings _ _ _ hst, C52_user_info _ _ hui,
    C52_command_info _ _ _, fun k v => fromRaw_getBytes .., fun k v => fromRaw_getBytes .., Iff.rfl⟩

/-- C32: the options that decide about a session are the ones sudo passed to its `open`. -/
theorem C32_session {rt : Rt} {a : OpenArgs} {env : IoEnv} (h : IoEnv.new rt a = some (.ok env)) :
    PluginOptionsFrom a.pluginOptions (.ofMap env.pluginOptions) := by
  have : env.pluginOptions = .fromRaw a.pluginOptions := by
    unfold IoEnv.new at h
    split at h
    · simp at h
    split at h
    · simp at h
    · simp at h
    split at h
    · simp at h
    simp only [Option.some.injEq, Except.ok.injEq] at h
    subst h
    rfl
  rw [this]
  exact C32_plugin_options _

/-- Non-vacuity: minimal vectors for which the conversions succeed (with some optional keys). -/
example : (∃ ui, UserInfo.tryFrom (.fromRaw (some [b! "cwd=/root", b! "egid=0", b! "euid=0",
      b! "gid=1000", b! "groups=1000,27", b! "host=h", b! "pgid=7", b! "pid=42", b! "ppid=7",
      b! "uid=1000", b! "user=u", b! "cols=132"])) = .ok ui ∧ ui.groups = [1000, 27] ∧ ui.cols = 132 ∧
      ui.lines = 24) ∧
    (∃ st, Settings.tryFrom (fun _ => none) (.fromRaw (some [b! "plugin_dir=/p", b! "plugin_path=/p/x",
      b! "progname=sudo", b! "runas_group=g", b! "network_addrs=junk"])) = some (.ok st) ∧
      st.runasGroup = some (b! "g")) ∧
    (CommandInfo.tryFrom 0 5 (.fromRaw (some [b! "runas_uid=7"]))).runasEuid = 7 ∧
    (CommandInfo.tryFrom 0 5 (.fromRaw (some [b! "runas_uid=7"]))).runasEgid = 5 := by
  refine ⟨⟨_, rfl, by decide, by decide, by decide⟩, ⟨_, rfl, by decide⟩, by decide, by decide⟩

/-- Non-vacuity of `C52_environment` and `C32_session`: the sample arguments, with an option of the
plugin set, are accepted. -/
example : ∃ env, IoEnv.new sampleRt { sampleArgs with pluginOptions := some [b! "gids_enforced=27"] } =
      some (.ok env) ∧ env.userInfo.uid = 1000 ∧ env.commandInfo.command = b! "/bin/ls" ∧
      (PluginOptions.ofMap env.pluginOptions).gidsEnforced = [27] :=
  ⟨_, rfl, by decide, by decide, by decide⟩

/-! ### C36 -/

/-- C36 (partial): `network_addrs` is harmless if every element contains a `/`, or does not parse as
an address.  Full statement: parsing never panics for any value; that is false, see
`C36_counterexample`. -/
theorem C36_no_panic_partial (parseIp : Bytes → Option Bytes) (vec : Option (List Bytes))
    (h : ∀ v, Value vec (b! "network_addrs") v → ∀ e ∈ splitOn 32 v,
      (47 : UInt8) ∈ e ∨ parseIp e = none) :
    getNetAddrs parseIp (.fromRaw vec) ≠ none := by
  unfold getNetAddrs
  cases hs : (OptionMap.fromRaw vec).getStr (b! "network_addrs") with
  | none => simp
  | some v =>
    have hv := h v ((getStr_iff ..).1 hs).1
    have hone : ∀ e, (47 : UInt8) ∈ e ∨ parseIp e = none → parseNetAddr parseIp e ≠ .panic := by
      intro e he
      unfold parseNetAddr
      split
      · split
        · simp
        · split <;> simp
      · rename_i hn
        have := splitFirst_none.1 hn
        rcases he with he | he
        · exact absurd he this
        · simp [he]
    have hall : ∀ es : List Bytes, (∀ e ∈ es, (47 : UInt8) ∈ e ∨ parseIp e = none) →
        parseNetAll parseIp es ≠ .panic := by
      intro es
      induction es with
      | nil => simp [parseNetAll]
      | cons e es ih =>
        intro hes
        unfold parseNetAll
        have h1 := hone e (hes e (by simp))
        have h2 := ih (fun x hx => hes x (by simp [hx]))
        cases he : parseNetAddr parseIp e with
        | panic => exact absurd he h1
        | err => simp
        | ok x =>
          cases hr : parseNetAll parseIp es with
          | panic => exact absurd hr h2
          | err => simp
          | ok xs => simp
    simp only
    have := hall _ hv
    unfold parseNetAddrs
    split <;> simp_all

/-- C36 fails, exactly when all elements before some element are well formed, and that element has no
`/` but parses as an address. -/
theorem C36_panic_iff (parseIp : Bytes → Option Bytes) (es : List Bytes) :
    parseNetAll parseIp es = .panic ↔
      ∃ pre e post, es = pre ++ e :: post ∧ (∀ p ∈ pre, ∃ n, DenotesNet parseIp p n) ∧
        (47 : UInt8) ∉ e ∧ parseIp e ≠ none := by
  have hone : ∀ e, parseNetAddr parseIp e = .panic ↔ (47 : UInt8) ∉ e ∧ parseIp e ≠ none := by
    intro e
    unfold parseNetAddr
    split
    · rename_i a m hs
      have := splitFirst_some.1 hs
      constructor
      · intro h; split at h
        · simp at h
        · split at h <;> simp at h
      · rintro ⟨h, _⟩; exact absurd (by rw [this.1]; simp) h
    · rename_i hn
      have := splitFirst_none.1 hn
      cases parseIp e <;> simp [this]
  induction es with
  | nil => simp [parseNetAll]
  | cons e es ih =>
    unfold parseNetAll
    cases he : parseNetAddr parseIp e with
    | panic =>
      simp only [true_iff]
      exact ⟨[], e, es, rfl, by simp, (hone e).1 he⟩
    | err =>
      simp only [reduceCtorEq, false_iff]
      rintro ⟨pre, x, post, h1, h2, h3⟩
      cases pre with
      | nil =>
        simp at h1
        rw [h1.1, (hone x).2 h3] at he; simp at he
      | cons p pre =>
        simp at h1
        obtain ⟨n, hn⟩ := h2 p (by simp)
        rw [h1.1, parseNetAddr_ok.2 hn] at he; simp at he
    | ok y =>
      have hgoal : (parseNetAll parseIp es = .panic ↔
          ∃ pre x post, e :: es = pre ++ x :: post ∧ (∀ p ∈ pre, ∃ n, DenotesNet parseIp p n) ∧
            (47 : UInt8) ∉ x ∧ parseIp x ≠ none) := by
        refine Iff.trans ih ?_
        constructor
        · rintro ⟨pre, x, post, h1, h2, h3⟩
          refine ⟨e :: pre, x, post, by simp [h1], ?_, h3⟩
          intro p hp
          simp only [List.mem_cons] at hp
          rcases hp with rfl | hp
          · exact ⟨y, parseNetAddr_ok.1 he⟩
          · exact h2 p hp
        · rintro ⟨pre, x, post, h1, h2, h3⟩
          cases pre with
          | nil =>
            simp at h1
            rw [h1.1, (hone x).2 h3] at he; simp at he
          | cons p pre =>
            simp at h1
            exact ⟨pre, x, post, h1.2, fun q hq => h2 q (by simp [hq]), h3⟩
      rw [← hgoal]
      cases hr : parseNetAll parseIp es <;> simp

/-- C36 is false as stated: an address without netmask panics instead of being ignored. -/
theorem C36_counterexample (parseIp : Bytes → Option Bytes) (h : parseIp (b! "10.0.0.1") ≠ none) :
    getNetAddrs parseIp (.fromRaw (some [b! "network_addrs=10.0.0.1"])) = none := by
  have hv : (OptionMap.fromRaw (some [b! "network_addrs=10.0.0.1"])).getStr (b! "network_addrs")
      = some (b! "10.0.0.1") := by decide
  have hs : splitOn 32 (b! "10.0.0.1") = [b! "10.0.0.1"] := by decide
  have hp : parseNetAddrs parseIp (b! "10.0.0.1") = .panic := by
    unfold parseNetAddrs
    rw [hs, C36_panic_iff]
    exact ⟨[], _, [], rfl, by simp, by decide, h⟩
  unfold getNetAddrs
  rw [hv]
  simp only [hp]

/-- Non-vacuity of the hypothesis of `C36_no_panic_partial` on a value with two addresses. -/
example : ∀ e ∈ splitOn 32 (b! "10.0.0.1/255.0.0.0 junk"), (47 : UInt8) ∈ e ∨
    (fun s : Bytes => if s = b! "10.0.0.1" then some s else none) e = none := by decide

end SudoPair
