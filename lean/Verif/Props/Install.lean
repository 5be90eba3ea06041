import Verif.Spec.Install
import Verif.Spec.Rejection
import Verif.Props.Config
import Verif.Props.Path
/-
C82: what `make install` installs, and whether the plugin finds it.
-/
namespace SudoPair
open Install Spec

theorem same_iff (p q : Bytes) : SamePath p q ↔ Path.components p = Path.components q := by
  rw [← path_eq_iff]
  unfold Path.eq
  simp

theorem components_child (d n : Bytes) (h47 : (47 : UInt8) ∉ n) (h0 : n ≠ []) (h1 : n ≠ [46]) (h2 : n ≠ [46, 46]) :
    Path.components (d ++ 47 :: n) = (if d = [] then [.root] else Path.components d) ++ [.normal n] := by
  rw [Path.components_append, Path.name_body h47 h0 h1 h2]

/-- A file of this name in a directory is the one in the other directory only if the directories are the same. -/
theorem same_child {d d' n : Bytes} (h47 : (47 : UInt8) ∉ n) (h0 : n ≠ []) (h1 : n ≠ [46]) (h2 : n ≠ [46, 46])
    (hd : Path.components d' ≠ [] ∧ Path.components d' ≠ [.root]) :
    SamePath (d ++ 47 :: n) (d' ++ 47 :: n) ↔ SamePath d d' := by
  have hd' : d' ≠ [] := by rintro rfl; exact hd.1 (by decide)
  rw [same_iff, same_iff, components_child d n h47 h0 h1 h2, components_child d' n h47 h0 h1 h2, if_neg hd',
    List.append_cancel_right_eq]
  by_cases h : d = []
  · subst h
    rw [if_pos rfl, show Path.components [] = [] by decide]
    exact ⟨fun h => absurd h.symm hd.2, fun h => absurd h.symm hd.1⟩
  · rw [if_neg h]

theorem pieces_iff {sep : UInt8} {s : Bytes} {ps : List Bytes} : Pieces sep s ps ↔ splitOn sep s = ps := by
  constructor
  · rintro ⟨first, rest, rfl, hs, hn⟩
    exact splitOn_eq_cons.2 ⟨hs, hn⟩
  · intro h
    obtain ⟨first, rest, hfr⟩ := List.exists_cons_of_ne_nil (splitOn_ne_nil sep s)
    have := splitOn_eq_cons.1 hfr
    rw [← h, hfr]
    exact ⟨first, rest, rfl, this.1, this.2⟩

/-- The options that the plugin has when it is loaded by the line of the Makefile. -/
def lineOptions (nogroup : Bytes) : PluginOptions := .ofMap (.fromRaw (some (confOptions (confLine nogroup))))

theorem split_line {g : Bytes} (hg : (32 : UInt8) ∉ g) :
    splitOn 32 (confLine g) = [b! "Plugin", b! "sudo_pair", b! "sudo_pair.so", b! "gids_enforced=" ++ g] := by
  have h1 : confLine g = b! "Plugin" ++ 32 :: (b! "sudo_pair" ++ 32 :: (b! "sudo_pair.so" ++ 32 ::
      (b! "gids_enforced=" ++ g))) := by
    unfold confLine
    rw [show b! "Plugin sudo_pair sudo_pair.so gids_enforced=" = b! "Plugin" ++ 32 :: (b! "sudo_pair" ++ 32 ::
      (b! "sudo_pair.so" ++ 32 :: b! "gids_enforced=")) by decide +kernel]
    simp only [List.append_assoc, List.cons_append]
  have h2 : (32 : UInt8) ∉ b! "gids_enforced=" ++ g := by
    rw [List.mem_append, not_or]
    exact ⟨by decide +kernel, hg⟩
  rw [h1, splitOn_append_sep, splitOn_append_sep, splitOn_append_sep, splitOn_no_sep h2,
    splitOn_no_sep (by decide +kernel), splitOn_no_sep (by decide +kernel), splitOn_no_sep (by decide +kernel)]
  rfl

/-- C82: the line carries a single option, for whatever getent(1) printed. -/
theorem C82_line {g : Bytes} (hg : (32 : UInt8) ∉ g) : confOptions (confLine g) = [b! "gids_enforced=" ++ g] := by
  rw [confOptions, split_line hg]
  rfl

theorem no_blank (n : Nat) : (32 : UInt8) ∉ decimal n := by
  rw [← decNat_eq_decimal]
  intro h
  exact absurd ((decNat_decimal n).2.1 _ h) (by unfold IsDigit; decide)

/-- What the options of that line are: the defaults, but for the enforced group. -/
theorem C82_options {n : Nat} (hn : n < 2 ^ 32) : lineOptions (decimal n) =
    { binaryPath := b! "/usr/bin/sudo_approve", userPromptPath := b! "/etc/sudo_pair.prompt.user",
      pairPromptPath := b! "/etc/sudo_pair.prompt.pair", socketDir := b! "/var/run/sudo_pair",
      gidsEnforced := [n], gidsExempted := [] } := by
  have hc : (makefileConf n).Sound := by
    refine ⟨fun v h => by simp [makefileConf] at h, fun l h => ?_⟩
    simp only [makefileConf, reduceCtorEq, Option.some.injEq, or_false] at h
    subst h
    simpa using hn
  unfold lineOptions
  rw [C82_line (no_blank n), C79_options hc (.of_eq (by simp [makefileConf, Conf.words, given, commaList]))]
  rfl

/-- Without a group `nogroup` the line has an empty value, and the plugin enforces gid 0. -/
theorem C82_no_group : lineOptions [] =
    { binaryPath := b! "/usr/bin/sudo_approve", userPromptPath := b! "/etc/sudo_pair.prompt.user",
      pairPromptPath := b! "/etc/sudo_pair.prompt.pair", socketDir := b! "/var/run/sudo_pair",
      gidsEnforced := [0], gidsExempted := [] } := by decide +kernel

/-- What getent(1) prints for the group: its gid, or nothing if there is none. -/
def GetentPrints (g : Bytes) : Prop := g = [] ∨ ∃ n, n < 2 ^ 32 ∧ g = decimal n

theorem line_paths {g : Bytes} (hg : GetentPrints g) : (lineOptions g).binaryPath = b! "/usr/bin/sudo_approve" ∧
    (lineOptions g).pairPromptPath = b! "/etc/sudo_pair.prompt.pair" ∧
    (lineOptions g).userPromptPath = b! "/etc/sudo_pair.prompt.user" ∧
    (lineOptions g).socketDir = b! "/var/run/sudo_pair" := by
  rcases hg with rfl | ⟨n, hn, rfl⟩
  · rw [C82_no_group]; exact ⟨rfl, rfl, rfl, rfl⟩
  · rw [C82_options hn]; exact ⟨rfl, rfl, rfl, rfl⟩

theorem found_iff {v : Vars} {o : PluginOptions} :
    (Found (recipe v) o .script ↔ SamePath (v.destdir ++ v.bindir' ++ b! "/sudo_approve") o.binaryPath) ∧
    (Found (recipe v) o .pairPrompt ↔
      SamePath (v.destdir ++ v.sysconfdir' ++ b! "/sudo_pair.prompt.pair") o.pairPromptPath) ∧
    (Found (recipe v) o .userPrompt ↔
      SamePath (v.destdir ++ v.sysconfdir' ++ b! "/sudo_pair.prompt.user") o.userPromptPath) ∧
    (Found (recipe v) o .socketDir ↔ SamePath (v.destdir ++ v.runstatedir' ++ b! "/sudo_pair") o.socketDir) := by
  simp [Found, recipe, expected]

/-- C82: with the line that the Makefile writes, the plugin finds the script, a prompt or the directory of the sockets
exactly if the directory it was installed into is spelt like the one of the defaults. -/
theorem C82_found (v : Vars) {g : Bytes} (hg : GetentPrints g) :
    (Found (recipe v) (lineOptions g) .script ↔ SamePath (v.destdir ++ v.bindir') (b! "/usr/bin")) ∧
    (Found (recipe v) (lineOptions g) .pairPrompt ↔ SamePath (v.destdir ++ v.sysconfdir') (b! "/etc")) ∧
    (Found (recipe v) (lineOptions g) .userPrompt ↔ SamePath (v.destdir ++ v.sysconfdir') (b! "/etc")) ∧
    (Found (recipe v) (lineOptions g) .socketDir ↔ SamePath (v.destdir ++ v.runstatedir') (b! "/var/run")) := by
  obtain ⟨h1, h2, h3, h4⟩ := line_paths hg
  rw [found_iff.1, found_iff.2.1, found_iff.2.2.1, found_iff.2.2.2, h1, h2, h3, h4]
  exact ⟨same_child (d' := b! "/usr/bin") (n := b! "sudo_approve") (by decide +kernel) (by decide +kernel)
      (by decide +kernel) (by decide +kernel) (by decide +kernel),
    same_child (d' := b! "/etc") (n := b! "sudo_pair.prompt.pair") (by decide +kernel) (by decide +kernel)
      (by decide +kernel) (by decide +kernel) (by decide +kernel),
    same_child (d' := b! "/etc") (n := b! "sudo_pair.prompt.user") (by decide +kernel) (by decide +kernel)
      (by decide +kernel) (by decide +kernel) (by decide +kernel),
    same_child (d' := b! "/var/run") (n := b! "sudo_pair") (by decide +kernel) (by decide +kernel)
      (by decide +kernel) (by decide +kernel) (by decide +kernel)⟩

/-- A directory under `p` is the one under the root only if `p` is the root. -/
theorem same_root {p n : Bytes} (h47 : (47 : UInt8) ∉ n) (h0 : n ≠ []) (h1 : n ≠ [46]) (h2 : n ≠ [46, 46]) :
    SamePath (p ++ 47 :: n) (47 :: n) ↔ p = [] ∨ SamePath p (b! "/") := by
  have h := components_child [] n h47 h0 h1 h2
  rw [List.nil_append, if_pos rfl] at h
  rw [same_iff, same_iff, components_child p n h47 h0 h1 h2, h, List.append_cancel_right_eq,
    show Path.components (b! "/") = [.root] by decide +kernel]
  by_cases hp : p = [] <;> simp [hp]

/-- C82: one prefix for everything never serves: the script is found only under `/usr`, the rest only under the root. -/
theorem C82_one_prefix (p : Bytes) {g : Bytes} (hg : GetentPrints g) :
    let F := Found (recipe { pfx := some p }) (lineOptions g)
    (F .script ↔ SamePath p (b! "/usr")) ∧
    (∀ t, t = .pairPrompt ∨ t = .userPrompt ∨ t = .socketDir → (F t ↔ p = [] ∨ SamePath p (b! "/"))) ∧
    (∀ t, t = .pairPrompt ∨ t = .userPrompt ∨ t = .socketDir → ¬ (F .script ∧ F t)) := by
  intro F
  obtain ⟨h1, h2, h3, h4⟩ := C82_found { pfx := some p } hg
  have hs : F .script ↔ SamePath p (b! "/usr") := h1.trans
    (same_child (d := p) (d' := b! "/usr") (n := b! "bin") (by decide +kernel) (by decide +kernel)
      (by decide +kernel) (by decide +kernel) (by decide +kernel))
  have he : SamePath (p ++ b! "/etc") (b! "/etc") ↔ p = [] ∨ SamePath p (b! "/") :=
    same_root (n := b! "etc") (by decide +kernel) (by decide +kernel) (by decide +kernel) (by decide +kernel)
  have hv : SamePath (p ++ b! "/var" ++ b! "/run") (b! "/var/run") ↔ p = [] ∨ SamePath p (b! "/") :=
    (same_child (d := p ++ b! "/var") (d' := b! "/var") (n := b! "run") (by decide +kernel) (by decide +kernel)
      (by decide +kernel) (by decide +kernel) (by decide +kernel)).trans
    (same_root (n := b! "var") (by decide +kernel) (by decide +kernel) (by decide +kernel) (by decide +kernel))
  have ht : ∀ t, t = .pairPrompt ∨ t = .userPrompt ∨ t = .socketDir → (F t ↔ p = [] ∨ SamePath p (b! "/")) := by
    rintro t (rfl | rfl | rfl)
    · exact h2.trans he
    · exact h3.trans he
    · exact h4.trans hv
  refine ⟨hs, ht, fun t h ⟨k1, k2⟩ => ?_⟩
  have k1 := (same_iff _ _).1 (hs.1 k1)
  rcases (ht t h).1 k2 with rfl | k2
  · revert k1; decide +kernel
  · rw [(same_iff _ _).1 k2] at k1
    revert k1; decide +kernel

/-- C82: with the variables as the Makefile sets them, the plugin finds nothing of it; as the Dockerfile sets them, all. -/
theorem C82_defaults {g : Bytes} (hg : GetentPrints g) (t : Thing) :
    ¬ Found (recipe {}) (lineOptions g) t ∧
    (t ≠ .library → t ≠ .sudoers →
      Found (recipe { pfx := some [], execPrefix := some (b! "/usr") }) (lineOptions g) t) := by
  obtain ⟨h1, h2, h3, h4⟩ := C82_found {} hg
  obtain ⟨k1, k2, k3, k4⟩ := C82_found { pfx := some [], execPrefix := some (b! "/usr") } hg
  simp only [same_iff] at h1 h2 h3 h4 k1 k2 k3 k4
  cases t with
  | socketDir => exact ⟨mt h4.1 (by decide +kernel), fun _ _ => k4.2 (by decide +kernel)⟩
  | script => exact ⟨mt h1.1 (by decide +kernel), fun _ _ => k1.2 (by decide +kernel)⟩
  | pairPrompt => exact ⟨mt h2.1 (by decide +kernel), fun _ _ => k2.2 (by decide +kernel)⟩
  | userPrompt => exact ⟨mt h3.1 (by decide +kernel), fun _ _ => k3.2 (by decide +kernel)⟩
  | library => exact ⟨by simp [Found, expected], fun h => absurd rfl h⟩
  | sudoers => exact ⟨by simp [Found, expected], fun _ h => absurd rfl h⟩

/-- C82: where everything goes for a prefix `p`, an exec_prefix `e` and a DESTDIR `d`, nothing else being set; and the
library has the name that the line gives. -/
theorem C82_places (p e d : Bytes) {g : Bytes} (hg : (32 : UInt8) ∉ g) :
    (recipe { pfx := some p, execPrefix := some e, destdir := d }).map (fun x => (x.thing, x.path)) =
      [(.socketDir, d ++ p ++ b! "/var/run/sudo_pair"), (.script, d ++ e ++ b! "/bin/sudo_approve"),
       (.library, d ++ e ++ b! "/lib/sudo/sudo_pair.so"), (.pairPrompt, d ++ p ++ b! "/etc/sudo_pair.prompt.pair"),
       (.userPrompt, d ++ p ++ b! "/etc/sudo_pair.prompt.user"), (.sudoers, d ++ p ++ b! "/etc/sudoers.d/sudo_pair")] ∧
    Pieces 32 (confLine g) [b! "Plugin", b! "sudo_pair", b! "sudo_pair.so", b! "gids_enforced=" ++ g] ∧
    (recipe { pfx := some p }).map Placed.path = (recipe { pfx := some p, execPrefix := some p }).map Placed.path ∧
    (recipe {}).map Placed.path = (recipe { pfx := some (b! "/usr/local") }).map Placed.path := by
  refine ⟨?_, ?_, rfl, rfl⟩
  · simp [recipe, Vars.pfx', Vars.execPrefix', Vars.bindir', Vars.libdir', Vars.sysconfdir', Vars.localstatedir',
      Vars.runstatedir']
  · exact pieces_iff.2 (split_line hg)

/-- C82: a directory that is set is used as it is, whatever else is set. -/
theorem C82_set (v : Vars) (x : Bytes) :
    (v.bindir = some x → ⟨.script, v.destdir ++ x ++ b! "/sudo_approve", 0o755⟩ ∈ recipe v) ∧
    (v.libdir = some x → ⟨.library, v.destdir ++ x ++ b! "/sudo/sudo_pair.so", 0o644⟩ ∈ recipe v) ∧
    (v.sysconfdir = some x → ⟨.pairPrompt, v.destdir ++ x ++ b! "/sudo_pair.prompt.pair", 0o644⟩ ∈ recipe v ∧
      ⟨.userPrompt, v.destdir ++ x ++ b! "/sudo_pair.prompt.user", 0o644⟩ ∈ recipe v ∧
      ⟨.sudoers, v.destdir ++ x ++ b! "/sudoers.d/sudo_pair", 0o440⟩ ∈ recipe v) ∧
    (v.runstatedir = some x → ⟨.socketDir, v.destdir ++ x ++ b! "/sudo_pair", 0o644⟩ ∈ recipe v) ∧
    (v.localstatedir = some x → v.runstatedir = none →
      ⟨.socketDir, v.destdir ++ x ++ b! "/run/sudo_pair", 0o644⟩ ∈ recipe v) := by
  refine ⟨fun h => ?_, fun h => ?_, fun h => ?_, fun h => ?_, fun h h' => ?_⟩
  all_goals simp [recipe, Vars.bindir', Vars.libdir', Vars.sysconfdir', Vars.localstatedir', Vars.runstatedir', *]

/-- C82: whatever the variables, each thing is installed once, nothing but root may write it, the script may be run by
everybody, and the directory of the sockets may be searched by nobody. -/
theorem C82_modes (v : Vars) :
    (recipe v).map (fun x => (x.thing, x.mode)) = [(.socketDir, 0o644), (.script, 0o755), (.library, 0o644),
      (.pairPrompt, 0o644), (.userPrompt, 0o644), (.sudoers, 0o440)] ∧
    (∀ x ∈ recipe v, x.mode &&& 0o022 = 0 ∧ (x.thing = .script ↔ x.mode &&& 0o111 = 0o111) ∧
      (x.thing = .socketDir → x.mode &&& 0o111 = 0)) := by
  refine ⟨rfl, fun x hx => ?_⟩
  simp only [recipe, List.mem_cons, List.not_mem_nil, or_false] at hx
  rcases hx with rfl | rfl | rfl | rfl | rfl | rfl <;> simp <;> decide

/-- C82: a session that runs the installed script, with the line of the Makefile, in the enforced group, logged, by
somebody who neither is root nor sudoes to themselves: if the script is where the plugin looks for it, nobody is asked;
if not, `open` returns 1 only after a pair approved, on the session's socket. -/
theorem C82_script (v : Vars) {n : Nat} (hn : n < 2 ^ 32) {rt : Rt} {a : OpenArgs} (hrel : rt.debug = false)
    (hv : a.pluginOptions = some (confOptions (confLine (decimal n)))) {env : IoEnv}
    (hnew : IoEnv.new rt a = some (.ok env))
    (hcmd : SamePath env.commandInfo.command (v.destdir ++ v.bindir' ++ b! "/sudo_approve"))
    (hroot : env.userInfo.uid ≠ env.userInfo.euid) (hself : ¬ Themselves env) (hlog : ¬ Unlogged env)
    (hg : RunsWith env n) :
    (SamePath (v.destdir ++ v.bindir') (b! "/usr/bin") → ∀ {o h}, Runs (Core.open rt a Core.init) o h →
      h = [] ∧ ∃ st, o = .ok (1, st)) ∧
    (¬ SamePath (v.destdir ++ v.bindir') (b! "/usr/bin") → ∀ {st h}, Runs (Core.open rt a Core.init) (.ok (1, st)) h →
      ∃ fd, Approved (b! "/var/run/sudo_pair/" ++ socketName env.userInfo.uid env.userInfo.pid)
        (b! "/etc/sudo_pair.prompt.pair") builtinPairPrompt (promptVars (Pair.ofEnv env)) fd h) := by
  have ho : optionsOf env = lineOptions (decimal n) := by
    unfold lineOptions
    rw [← hv]
    exact C32_determined (C32_session hnew) (C32_plugin_options _)
  have hf := (C82_found v (.inr ⟨n, hn, rfl⟩)).1
  rw [found_iff.1, same_iff, ← (same_iff _ _).1 hcmd, ← same_iff] at hf
  have hx : SessionExempt env ↔ SamePath (v.destdir ++ v.bindir') (b! "/usr/bin") := by
    rw [← hf]
    unfold SessionExempt Exempt
    rw [ho]
    constructor
    · rintro (h | h | h | h | ⟨g, h, _⟩ | h)
      · exact absurd h hroot
      · exact absurd h hself
      · exact h
      · exact absurd h hlog
      · rw [C82_options hn] at h; cases h
      · refine absurd hg (h n ?_)
        rw [C82_options hn]; simp
    · exact fun h => .inr (.inr (.inl h))
  refine ⟨fun h1 o h hr => ?_, fun h1 st h hr => ?_⟩
  · obtain ⟨k1, st, k2, _⟩ := C05_open rt a Core.init env o h hnew rfl (hx.2 h1) (by simp [hrel]) hr
    exact ⟨k1, st, k2⟩
  · have hne : env.commandInfo.command ≠ [] := by
      intro k
      rw [k, same_iff, show b! "/sudo_approve" = 47 :: b! "sudo_approve" from rfl, components_child _ _ (by decide +kernel)
        (by decide +kernel) (by decide +kernel) (by decide +kernel)] at hcmd
      simp [show Path.components [] = [] by decide] at hcmd
    obtain ⟨p, _, hp⟩ := fresh_open_stored hr hnew hne
    obtain ⟨fd, _, hap⟩ := approvedSession_of (fun k => h1 (hx.1 k)) hp
    unfold ApprovedSession sessionPath at hap
    rw [ho, C82_options hn] at hap
    exact ⟨fd, hap⟩

/-- C82: the Debian package with the sample line, whether or not it comes with prompts: the script and the directory of
the sockets are found, no prompt is, and the library has another name than the line gives.  Everybody may search the
directory of the sockets, unlike the one of `C82_modes`, and nobody but the owner may write anything. -/
theorem C82_debian (prompts : Bool) :
    (∀ t, Found (debian prompts) (.ofMap (.fromRaw (some (confOptions sampleLine)))) t ↔ t = .script ∨ t = .socketDir) ∧
    (∀ x ∈ debian prompts, x.thing = .library → x.path = b! "/usr/lib/sudo/libsudo_pair.so") ∧
    Pieces 32 sampleLine [b! "Plugin", b! "sudo_pair", b! "sudo_pair.so", b! "gids_enforced="] ∧
    (∀ x ∈ debian prompts, x.mode &&& 0o022 = 0 ∧ (x.thing = .socketDir → x.mode &&& 0o111 = 0o111)) := by
  have ho : PluginOptions.ofMap (.fromRaw (some (confOptions sampleLine))) = lineOptions [] := by
    unfold lineOptions
    rw [show sampleLine = confLine [] by decide +kernel]
  refine ⟨fun t => ?_, ?_, pieces_iff.2 (by decide +kernel), ?_⟩
  · rw [ho]
    obtain ⟨h1, h2, h3, h4⟩ := line_paths (g := []) (.inl rfl)
    unfold Found
    constructor
    · rintro ⟨x, hx, rfl, p, hp, hs⟩
      rw [same_iff] at hs
      have hm : x ∈ debian true := by
        cases prompts
        · exact List.mem_append_left _ (by simpa [debian] using hx)
        · exact hx
      simp only [debian, List.mem_append, List.mem_cons, List.not_mem_nil, or_false, if_true] at hm
      rcases hm with (rfl | rfl | rfl) | rfl | rfl
      · simp [expected] at hp
      · exact .inr rfl
      · exact .inl rfl
      · rw [expected, h3, Option.some.injEq] at hp
        subst hp
        revert hs; decide +kernel
      · rw [expected, h2, Option.some.injEq] at hp
        subst hp
        revert hs; decide +kernel
    · rintro (rfl | rfl)
      · exact ⟨_, by simp only [debian, List.cons_append, List.nil_append]; exact .tail _ (.tail _ (.head _)), rfl, _, rfl,
          by rw [h1]; exact .refl _⟩
      · exact ⟨_, by simp only [debian, List.cons_append, List.nil_append]; exact .tail _ (.head _), rfl, _, rfl,
          by rw [h4]; exact .refl _⟩
  · cases prompts <;> decide +kernel
  · cases prompts <;> decide +kernel

/-- The library and the modes are of no concern to `Found`. -/
theorem found_congr {l m : List Placed}
    (h : (l.filter (·.thing ≠ .library)).map (fun x => (x.thing, x.path)) =
      (m.filter (·.thing ≠ .library)).map (fun x => (x.thing, x.path))) (o : PluginOptions) (t : Thing) :
    Found l o t ↔ Found m o t := by
  have key (l : List Placed) : Found l o t ↔
      ∃ y ∈ (l.filter (·.thing ≠ .library)).map (fun x => (x.thing, x.path)), y.1 = t ∧
        ∃ p, expected o t = some p ∧ SamePath y.2 p := by
    unfold Found
    constructor
    · rintro ⟨x, hx, rfl, p, hp, hs⟩
      refine ⟨_, List.mem_map.2 ⟨x, List.mem_filter.2 ⟨hx, ?_⟩, rfl⟩, rfl, p, hp, hs⟩
      have : x.thing ≠ .library := fun e => by rw [e] at hp; cases hp
      simpa using this
    · rintro ⟨y, hy, rfl, p, hp, hs⟩
      obtain ⟨x, hx, rfl⟩ := List.mem_map.1 hy
      exact ⟨x, (List.mem_filter.1 hx).1, rfl, p, hp, hs⟩
  rw [key, key, h]

/-- C82: the commands of the README, with the sample line: the script and the directory of the sockets are found, no
prompt is, and the library has another name than the line gives.  Unlike with the package (`C82_debian`), nobody may
search the directory of the sockets. -/
theorem C82_readme (prompts : Bool) :
    (∀ t, Found (readme prompts) (.ofMap (.fromRaw (some (confOptions sampleLine)))) t ↔ t = .script ∨ t = .socketDir) ∧
    (∀ x ∈ readme prompts, x.thing = .library → x.path = b! "/usr/libexec/sudo/libsudopair.dylib") ∧
    (∀ x ∈ readme prompts, x.mode &&& 0o022 = 0 ∧ (x.thing = .socketDir → x.mode &&& 0o111 = 0)) := by
  refine ⟨fun t => ?_, ?_, ?_⟩
  · rw [← (C82_debian prompts).1 t]
    refine found_congr ?_ _ _
    cases prompts <;> decide +kernel
  · cases prompts <;> decide +kernel
  · cases prompts <;> decide +kernel

/-- C82: the RPM package has nothing in place that the plugin looks for, whatever the options, and its library has another
name than the sample line gives. -/
theorem C82_rpm (o : PluginOptions) :
    (∀ t, ¬ Found rpm o t) ∧ (∀ x ∈ rpm, x.thing = .library ∧ x.path = b! "/usr/libexec/sudo/libsudo_pair.so") ∧
    (∀ x ∈ rpm, ∀ ws, Pieces 32 sampleLine ws → ∀ w ∈ ws, ∀ d, x.path ≠ d ++ b! "/" ++ w) := by
  refine ⟨?_, by decide +kernel, ?_⟩
  · rintro t ⟨x, hx, rfl, p, hp, -⟩
    obtain rfl := List.mem_singleton.1 hx
    cases hp
  · intro x hx ws hws w hw d e
    obtain rfl := List.mem_singleton.1 hx
    rw [← pieces_iff.1 hws] at hw
    clear hws
    have hs : b! "/" ++ w <:+ b! "/usr/libexec/sudo/libsudo_pair.so" := ⟨d, by rw [← List.append_assoc]; exact e.symm⟩
    clear e
    revert w
    decide +kernel

/-- A session that runs the script from `bin`, with the line of the Makefile. -/
def scriptArgs (bin : Bytes) : OpenArgs :=
  { sampleArgs with
    commandInfo := some [b! "command=" ++ bin ++ b! "/sudo_approve", b! "runas_uid=0", b! "runas_gid=0",
      b! "runas_groups=0,65534", b! "iolog_stdout=true", b! "iolog_stderr=true", b! "iolog_ttyout=true",
      b! "iolog_ttyin=true", b! "iolog_stdin=true"]
    pluginOptions := some (confOptions (confLine (decimal 65534))) }

/-- The hypotheses of `C82_script` are met by it, with the variables of the Makefile and of the Dockerfile. -/
example (v : Vars) (hv : v = {} ∨ v = { pfx := some [], execPrefix := some (b! "/usr") }) :
    ∃ env, IoEnv.new sampleRt (scriptArgs v.bindir') = some (.ok env) ∧
      SamePath env.commandInfo.command (v.destdir ++ v.bindir' ++ b! "/sudo_approve") ∧
      env.userInfo.uid ≠ env.userInfo.euid ∧ ¬ Themselves env ∧ ¬ Unlogged env ∧ RunsWith env 65534 := by
  rcases hv with rfl | rfl <;>
    refine ⟨_, rfl, (same_iff _ _).2 (by decide +kernel), by decide +kernel, ?_, ?_,
      .inr (.inl ⟨[0, 65534], by decide +kernel, by decide⟩)⟩ <;>
    simp only [Themselves, Unlogged] <;> decide +kernel

/-- Both outcomes: from `/usr/local/bin` the pair is asked, and may refuse; from `/usr/bin` nobody is. -/
example :
    retOf (Core.open sampleRt (scriptArgs (b! "/usr/local/bin")) Core.init (List.replicate 40 (coop 110))).1 ≠ some 1 ∧
    retOf (Core.open sampleRt (scriptArgs (b! "/usr/local/bin")) Core.init (List.replicate 40 (coop 121))).1 = some 1 ∧
    retOf (Core.open sampleRt (scriptArgs (b! "/usr/bin")) Core.init []).1 = some 1 := by
  decide +kernel

/-- Prefixes for both sides of `C82_one_prefix`. -/
example : SamePath (b! "/usr/") (b! "/usr") ∧ SamePath (b! "//") (b! "/") ∧ ¬ SamePath (b! "/usr/local") (b! "/usr") ∧
    ¬ SamePath (b! "/opt") (b! "/") := by
  simp only [same_iff]
  decide +kernel

end SudoPair
