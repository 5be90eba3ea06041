import Verif.Spec.Rejection
import Verif.Props.Gate
import Verif.Props.Version
import Verif.Props.Text
import Verif.Lemmas.Scenario
/-
C64: which arguments of `open` are rejected, and with which message.
-/
namespace SudoPair
open Spec

/-- The computation fails with message `msg`. -/
def Errs {α : Type} (x : Except PluginError α) (msg : Bytes) : Prop := ∃ e, x = .error e ∧ e.display = msg

theorem firstFault_nil (msg : Bytes) : ¬ FirstFault [] msg := by
  rintro ⟨pre, d, post, h, _⟩
  simp at h

theorem firstFault_cons (d : Demand) (ds : List Demand) (msg : Bytes) :
    FirstFault (d :: ds) msg ↔ d.Fault msg ∨ (d.Met ∧ FirstFault ds msg) := by
  constructor
  · rintro ⟨pre, x, post, h, hm, hf⟩
    cases pre with
    | nil =>
      obtain ⟨rfl, rfl⟩ : d = x ∧ ds = post := by simpa using h
      exact .inl hf
    | cons p pre =>
      obtain ⟨rfl, rfl⟩ : d = p ∧ ds = pre ++ x :: post := by simpa using h
      exact .inr ⟨hm _ (by simp), pre, x, post, rfl, fun p hp => hm p (by simp [hp]), hf⟩
  · rintro (hf | ⟨hm, pre, x, post, rfl, hp, hf⟩)
    · exact ⟨[], d, ds, rfl, by simp, hf⟩
    · refine ⟨d :: pre, x, post, rfl, ?_, hf⟩
      intro p hp'
      rcases List.mem_cons.1 hp' with rfl | h
      · exact hm
      · exact hp p h

/-- One required key. -/
theorem get_demand {α : Type} {p : Bytes → Option α} {D : Bytes → α → Prop} (hp : ∀ s a, p s = some a ↔ D s a)
    {wf : Bytes → Prop} (hwf : ∀ v, wf v ↔ ∃ a, D v a) (vec : Option (List Bytes)) (k : Bytes) :
    ((∃ a, (OptionMap.fromRaw vec).get p k = .ok a) ↔ (Demand.mk vec k wf).Met) ∧
    ∀ msg, Errs ((OptionMap.fromRaw vec).get p k) msg ↔ (Demand.mk vec k wf).Fault msg := by
  constructor
  · constructor
    · rintro ⟨a, h⟩
      obtain ⟨v, h1, h2, h3⟩ := (get_ok_iff hp ..).1 h
      exact ⟨v, h1, h2, (hwf v).2 ⟨a, h3⟩⟩
    · rintro ⟨v, h1, h2, h3⟩
      obtain ⟨a, ha⟩ := (hwf v).1 h3
      exact ⟨a, (get_ok_iff hp ..).2 ⟨v, h1, h2, ha⟩⟩
  · intro msg
    unfold OptionMap.get Errs
    cases hs : (OptionMap.fromRaw vec).getStr k with
    | none =>
      have hno : ¬ ∃ v, Value vec k v ∧ Utf8 v := by
        rintro ⟨v, h⟩
        rw [(getStr_iff vec k v).2 h] at hs; cases hs
      constructor
      · rintro ⟨e, h, rfl⟩
        cases h
        exact .missing hno
      · intro h
        cases h with
        | missing _ => exact ⟨_, rfl, rfl⟩
        | @unparseable v h1 h2 _ => exact absurd ⟨v, h1, h2⟩ hno
    | some v =>
      have hv := (getStr_iff vec k v).1 hs
      have huniq : ∀ w, Value vec k w → Utf8 w → w = v := by
        intro w h1 h2
        rw [(getStr_iff vec k w).2 ⟨h1, h2⟩] at hs
        exact Option.some.inj hs
      dsimp only
      cases hpv : p v with
      | none =>
        have hbad : ¬ wf v := by
          rw [hwf]
          rintro ⟨a, ha⟩
          rw [(hp v a).2 ha] at hpv; cases hpv
        constructor
        · rintro ⟨e, h, rfl⟩
          cases h
          exact .unparseable hv.1 hv.2 hbad
        · intro h
          cases h with
          | missing h => exact absurd ⟨v, hv⟩ h
          | @unparseable w h1 h2 _ =>
            obtain rfl := huniq w h1 h2
            exact ⟨_, rfl, rfl⟩
      | some a =>
        constructor
        · rintro ⟨e, h, _⟩; cases h
        · intro h
          cases h with
          | missing h => exact absurd ⟨v, hv⟩ h
          | @unparseable w h1 h2 h3 =>
            obtain rfl := huniq w h1 h2
            exact absurd ((hwf w).2 ⟨a, (hp w a).1 hpv⟩) h3

theorem errs_get {α β : Type} {p : Bytes → Option α} {D : Bytes → α → Prop} (hp : ∀ s a, p s = some a ↔ D s a)
    {wf : Bytes → Prop} (hwf : ∀ v, wf v ↔ ∃ a, D v a) {vec : Option (List Bytes)} {k : Bytes}
    {f : α → Except PluginError β} {ds : List Demand} {msg : Bytes}
    (hf : ∀ a, Errs (f a) msg ↔ FirstFault ds msg) :
    Errs ((OptionMap.fromRaw vec).get p k >>= f) msg ↔ FirstFault (⟨vec, k, wf⟩ :: ds) msg := by
  obtain ⟨h1, h2⟩ := get_demand hp hwf vec k
  rw [firstFault_cons, ← h1, ← h2 msg]
  unfold Errs at *
  cases hg : (OptionMap.fromRaw vec).get p k with
  | error e =>
    constructor
    · rintro ⟨e', h, hd⟩
      cases h
      exact .inl ⟨_, rfl, hd⟩
    · rintro (⟨e', h, hd⟩ | ⟨⟨a, h⟩, _⟩)
      · cases h
        exact ⟨_, rfl, hd⟩
      · cases h
  | ok a =>
    show (∃ e, f a = .error e ∧ _) ↔ _
    rw [hf a]
    constructor
    · intro h; exact .inr ⟨⟨a, rfl⟩, h⟩
    · rintro (⟨e, h, _⟩ | ⟨_, h⟩)
      · cases h
      · exact h

theorem anyText_iff (v : Bytes) : anyText v ↔ ∃ a, DenotesS v a := ⟨fun _ => ⟨v, rfl⟩, fun _ => trivial⟩

theorem errs_pure {α : Type} (a : α) (msg : Bytes) : Errs (pure a) msg ↔ FirstFault [] msg := by
  constructor
  · rintro ⟨_, h, _⟩
    cases h
  · exact fun h => absurd h (firstFault_nil msg)

/-- `user_info` is rejected with the first fault. -/
theorem userInfo_errs (vec : Option (List Bytes)) (msg : Bytes) :
    Errs (UserInfo.tryFrom (.fromRaw vec)) msg ↔ FirstFault (userDemands vec) msg := by
  unfold UserInfo.tryFrom userDemands
  refine errs_get parseStr_iff anyText_iff fun _ => ?_
  refine errs_get (parseUInt_iff 32) (fun _ => Iff.rfl) fun _ => ?_
  refine errs_get (parseUInt_iff 32) (fun _ => Iff.rfl) fun _ => ?_
  refine errs_get (parseUInt_iff 32) (fun _ => Iff.rfl) fun _ => ?_
  refine errs_get (parseList_iff (parseUInt_iff 32)) (fun _ => Iff.rfl) fun _ => ?_
  refine errs_get parseStr_iff anyText_iff fun _ => ?_
  refine errs_get (parseInt_iff 32) (fun _ => Iff.rfl) fun _ => ?_
  refine errs_get (parseInt_iff 32) (fun _ => Iff.rfl) fun _ => ?_
  refine errs_get (parseInt_iff 32) (fun _ => Iff.rfl) fun _ => ?_
  refine errs_get (parseUInt_iff 32) (fun _ => Iff.rfl) fun _ => ?_
  refine errs_get parseStr_iff anyText_iff fun _ => ?_
  exact errs_pure _ msg

/-- The required part of `settings`. -/
def settingsRequired (m : OptionMap) : Except PluginError (Bytes × Bytes × Bytes) := do
  let pluginDir  ← m.get parseStr (b! "plugin_dir")
  let pluginPath ← m.get parseStr (b! "plugin_path")
  let progname   ← m.get parseStr (b! "progname")
  pure (pluginDir, pluginPath, progname)

theorem settingsRequired_errs (vec : Option (List Bytes)) (msg : Bytes) :
    Errs (settingsRequired (.fromRaw vec)) msg ↔ FirstFault (settingsDemands vec) msg := by
  unfold settingsRequired settingsDemands
  refine errs_get parseStr_iff anyText_iff fun _ => ?_
  refine errs_get parseStr_iff anyText_iff fun _ => ?_
  refine errs_get parseStr_iff anyText_iff fun _ => ?_
  exact errs_pure _ msg

/-- Either everything is as it should be, or there is a first fault. -/
theorem demand_cases (d : Demand) : d.Met ∨ ∃ msg, d.Fault msg := by
  classical
  by_cases h : ∃ v, Value d.vec d.key v ∧ Utf8 v
  · obtain ⟨v, h1, h2⟩ := h
    by_cases hw : d.wf v
    · exact .inl ⟨v, h1, h2, hw⟩
    · exact .inr ⟨_, .unparseable h1 h2 hw⟩
  · exact .inr ⟨_, .missing h⟩

theorem value_unique {vec : Option (List Bytes)} {k v w : Bytes} (hv : Value vec k v) (hw : Value vec k w) : v = w := by
  have h1 := (fromRaw_getBytes ..).2 hv
  have h2 := (fromRaw_getBytes ..).2 hw
  rw [h1] at h2
  exact Option.some.inj h2

theorem met_not_fault {d : Demand} (h : d.Met) (msg : Bytes) : ¬ d.Fault msg := by
  obtain ⟨v, h1, h2, h3⟩ := h
  intro hf
  cases hf with
  | missing h => exact h ⟨v, h1, h2⟩
  | @unparseable w hw _ hbad =>
    obtain rfl := value_unique h1 hw
    exact hbad h3

theorem all_met_iff (ds : List Demand) : (∀ d ∈ ds, d.Met) ↔ ¬ ∃ msg, FirstFault ds msg := by
  induction ds with
  | nil => simp [firstFault_nil]
  | cons d ds ih =>
    constructor
    · rintro h ⟨msg, hf⟩
      rcases (firstFault_cons d ds msg).1 hf with hf | ⟨_, hf⟩
      · exact met_not_fault (h d (by simp)) msg hf
      · exact (ih.1 fun x hx => h x (by simp [hx])) ⟨msg, hf⟩
    · intro h x hx
      have hd : d.Met := by
        rcases demand_cases d with hd | ⟨msg, hd⟩
        · exact hd
        · exact absurd ⟨msg, (firstFault_cons d ds msg).2 (.inl hd)⟩ h
      rcases List.mem_cons.1 hx with rfl | hx
      · exact hd
      · exact ih.2 (fun ⟨msg, hf⟩ => h ⟨msg, (firstFault_cons d ds msg).2 (.inr ⟨hd, hf⟩)⟩) x hx

theorem errs_none_iff {α : Type} (x : Except PluginError α) : (∃ a, x = .ok a) ↔ ¬ ∃ msg, Errs x msg := by
  cases x with
  | error e => simp [Errs]
  | ok a => simp [Errs]

theorem getNetAddrs_none (parseIp : Bytes → Option Bytes) (vec : Option (List Bytes)) :
    getNetAddrs parseIp (.fromRaw vec) = none ↔ NetCrash parseIp vec := by
  unfold getNetAddrs
  constructor
  · intro h
    cases hs : (OptionMap.fromRaw vec).getStr (b! "network_addrs") with
    | none => rw [hs] at h; cases h
    | some v =>
      rw [hs] at h
      dsimp only at h
      have hv := (getStr_iff vec _ v).1 hs
      have hp : parseNetAll parseIp (splitOn 32 v) = .panic := by
        show parseNetAddrs parseIp v = .panic
        cases hp : parseNetAddrs parseIp v <;> rw [hp] at h <;> simp_all
      obtain ⟨pre, e, post, h1, h2, h3, h4⟩ := (C36_panic_iff ..).1 hp
      refine ⟨v, pre, e, post, hv.1, hv.2, ?_, h2, h3, h4⟩
      obtain ⟨first, rest, hfr⟩ := List.exists_cons_of_ne_nil (splitOn_ne_nil 32 v)
      obtain ⟨hj, hn⟩ := splitOn_eq_cons.1 hfr
      exact ⟨first, rest, by rw [← h1, hfr], hj, by rw [← h1, hfr]; exact hn⟩
  · rintro ⟨v, pre, e, post, hv, hu, ⟨first, rest, hfr, hj, hn⟩, h2, h3, h4⟩
    rw [(getStr_iff vec _ v).2 ⟨hv, hu⟩]
    dsimp only
    have : splitOn 32 v = pre ++ e :: post := by
      rw [hfr]
      exact splitOn_eq_cons.2 ⟨hj, by rw [← hfr]; exact hn⟩
    have hp : parseNetAddrs parseIp v = .panic := by
      show parseNetAll parseIp (splitOn 32 v) = .panic
      exact (C36_panic_iff ..).2 ⟨pre, e, post, this, h2, h3, h4⟩
    rw [hp]

/-- C52: `settings` is accepted exactly if the three required keys are present and well-formed
(unless a `network_addrs` panic intervenes, see C36). -/
theorem C52_settings_succeeds (parseIp : Bytes → Option Bytes) (vec : Option (List Bytes)) :
    (∃ st, Settings.tryFrom parseIp (.fromRaw vec) = some (.ok st)) ↔
      (∃ x, Required vec (b! "plugin_dir") DenotesS x) ∧
      (∃ x, Required vec (b! "plugin_path") DenotesS x) ∧
      (∃ x, Required vec (b! "progname") DenotesS x) ∧
      ¬ NetCrash parseIp vec := by
  rw [settings_succeeds, ← getNetAddrs_none]

/-- C09, converse direction: well-formed input from a supported sudo is accepted (unless
`network_addrs` makes the parser panic, C36), so the refusal is exactly about the required keys. -/
theorem C09_accepted (rt : Rt) (a : OpenArgs) (hv : 1 * 65536 + 9 ≤ a.version.toNat)
    (hw : WellFormedInput a.settings a.userInfo) (hn : ¬ NetCrash rt.parseIp a.settings) :
    ∃ env, IoEnv.new rt a = some (.ok env) :=
  accepted_of rt a hv hw (fun h => hn ((getNetAddrs_none ..).1 h))

theorem settings_error {parseIp : Bytes → Option Bytes} {m : OptionMap} {e : PluginError}
    (h : settingsRequired m = .error e) : Settings.tryFrom parseIp m = some (.error e) := by
  unfold settingsRequired at h
  unfold Settings.tryFrom
  simp only [h]

theorem settings_crash {parseIp : Bytes → Option Bytes} {m : OptionMap} {r : Bytes × Bytes × Bytes}
    (h : settingsRequired m = .ok r) (hn : getNetAddrs parseIp m = none) : Settings.tryFrom parseIp m = none := by
  unfold settingsRequired at h
  unfold Settings.tryFrom
  simp only [h, hn]

theorem settings_ok {parseIp : Bytes → Option Bytes} {m : OptionMap} {r : Bytes × Bytes × Bytes} {l : List NetAddr}
    (h : settingsRequired m = .ok r) (hn : getNetAddrs parseIp m = some l) :
    ∃ st, Settings.tryFrom parseIp m = some (.ok st) := by
  unfold settingsRequired at h
  unfold Settings.tryFrom
  simp only [h, hn]
  exact ⟨_, rfl⟩

theorem checkVersion_ok (v : BitVec 32) : (∃ x, IoEnv.checkVersion v = .ok x) ↔ ¬ TooOld v := by
  rw [C10_check]; unfold TooOld; omega

theorem checkVersion_errs (v : BitVec 32) (msg : Bytes) :
    Errs (IoEnv.checkVersion v) msg ↔ TooOld v ∧ msg = b! "sudo called plugin with an API version of " ++
      decimal (v.toNat / 65536) ++ b! "." ++ decimal (v.toNat % 65536) ++
      b! ", but a minimum of 1.9 is required" := by
  have hok := checkVersion_ok v
  unfold IoEnv.checkVersion at *
  unfold Errs
  by_cases hs : (Version.fromFfi v).supported = true
  · rw [if_pos hs] at *
    have : ¬ TooOld v := hok.1 ⟨_, rfl⟩
    constructor
    · rintro ⟨e, h, _⟩; cases h
    · rintro ⟨h, _⟩; exact absurd h this
  · rw [if_neg hs] at *
    have : TooOld v := by
      refine Classical.byContradiction fun h => ?_
      obtain ⟨x, hx⟩ := hok.2 h
      cases hx
    have hmsg : (PluginError.unsupportedApiVersion (Version.fromFfi v).major.toNat
        (Version.fromFfi v).minor.toNat).display = b! "sudo called plugin with an API version of " ++
      decimal (v.toNat / 65536) ++ b! "." ++ decimal (v.toNat % 65536) ++
      b! ", but a minimum of 1.9 is required" := by
      have h1 : (Version.fromFfi v).major.toNat = v.toNat / 65536 := fromFfi_major v
      have h2 : (Version.fromFfi v).minor.toNat = v.toNat % 65536 := fromFfi_minor v
      rw [h1, h2, ← (C30_prints _ 0).1, ← (C30_prints _ 0).1]
      rfl
    constructor
    · rintro ⟨e, h, rfl⟩
      cases h
      exact ⟨this, hmsg⟩
    · rintro ⟨_, rfl⟩
      exact ⟨_, rfl, hmsg⟩

theorem settings_met (vec : Option (List Bytes)) :
    (∃ r, settingsRequired (.fromRaw vec) = .ok r) ↔ ∀ d ∈ settingsDemands vec, d.Met := by
  rw [errs_none_iff, all_met_iff]
  simp only [settingsRequired_errs]

theorem user_met (vec : Option (List Bytes)) :
    (∃ r, UserInfo.tryFrom (.fromRaw vec) = .ok r) ↔ ∀ d ∈ userDemands vec, d.Met := by
  rw [errs_none_iff, all_met_iff]
  simp only [userInfo_errs]

/-- The three possible outcomes, each with what holds then. -/
theorem new_cases (rt : Rt) (a : OpenArgs) :
    (∃ e, IoEnv.new rt a = some (.error e) ∧ Complaint rt a e.display) ∨ (IoEnv.new rt a = none ∧ Crash rt a) ∨
    (∃ env, IoEnv.new rt a = some (.ok env)) ∧ Accepted rt a := by
  cases hv : IoEnv.checkVersion a.version with
  | error e =>
    refine .inl ⟨e, ?_, .inl ((checkVersion_errs _ _).1 ⟨e, hv, rfl⟩)⟩
    unfold IoEnv.new
    rw [hv]
  | ok v =>
    have hold : ¬ TooOld a.version := (checkVersion_ok _).1 ⟨v, hv⟩
    cases hr : settingsRequired (.fromRaw a.settings) with
    | error e =>
      refine .inl ⟨e, ?_, .inr (.inl ⟨hold, (settingsRequired_errs _ _).1 ⟨e, hr, rfl⟩⟩)⟩
      unfold IoEnv.new
      rw [hv, settings_error hr]
    | ok r =>
      have hset := (settings_met a.settings).1 ⟨r, hr⟩
      cases hn : getNetAddrs rt.parseIp (.fromRaw a.settings) with
      | none =>
        refine .inr (.inl ⟨?_, hold, hset, (getNetAddrs_none ..).1 hn⟩)
        unfold IoEnv.new
        rw [hv, settings_crash hr hn]
      | some l =>
        have hnet : ¬ NetCrash rt.parseIp a.settings := by
          rw [← getNetAddrs_none, hn]; simp
        obtain ⟨st, hst⟩ := settings_ok hr hn
        cases hu : UserInfo.tryFrom (.fromRaw a.userInfo) with
        | error e =>
          refine .inl ⟨e, ?_, .inr (.inr ⟨hold, hset, hnet, (userInfo_errs _ _).1 ⟨e, hu, rfl⟩⟩)⟩
          unfold IoEnv.new
          rw [hv, hst, hu]
        | ok ui =>
          refine .inr (.inr ⟨?_, hold, hset, hnet, (user_met a.userInfo).1 ⟨ui, hu⟩⟩)
          unfold IoEnv.new
          rw [hv, hst, hu]
          exact ⟨_, rfl⟩

theorem new_outcome (rt : Rt) (a : OpenArgs) :
    (∀ e, IoEnv.new rt a = some (.error e) → Complaint rt a e.display) ∧
    (IoEnv.new rt a = none → Crash rt a) ∧
    (∀ env, IoEnv.new rt a = some (.ok env) → Accepted rt a) := by
  rcases new_cases rt a with ⟨e, he, hc⟩ | ⟨he, hc⟩ | ⟨⟨env, he⟩, hc⟩ <;> rw [he]
  · refine ⟨fun e' h => ?_, fun h => absurd h (by simp), fun _ h => absurd h (by simp)⟩
    rw [← Except.error.inj (Option.some.inj h)]
    exact hc
  · exact ⟨fun _ h => absurd h (by simp), fun _ => hc, fun _ h => absurd h (by simp)⟩
  · exact ⟨fun _ h => absurd h (by simp), fun h => absurd h (by simp), fun _ _ => hc⟩

theorem fault_unique {d : Demand} {m m' : Bytes} (h : d.Fault m) (h' : d.Fault m') : m = m' := by
  cases h with
  | missing h =>
    cases h' with
    | missing _ => rfl
    | @unparseable v h1 h2 _ => exact absurd ⟨v, h1, h2⟩ h
  | @unparseable v h1 h2 _ =>
    cases h' with
    | missing h => exact absurd ⟨v, h1, h2⟩ h
    | @unparseable w h3 _ _ => obtain rfl := value_unique h1 h3; rfl

theorem firstFault_unique {ds : List Demand} {m m' : Bytes} (h : FirstFault ds m) (h' : FirstFault ds m') : m = m' := by
  induction ds with
  | nil => exact absurd h (firstFault_nil m)
  | cons d ds ih =>
    rcases (firstFault_cons ..).1 h with h | ⟨hm, h⟩ <;> rcases (firstFault_cons ..).1 h' with h' | ⟨hm', h'⟩
    · exact fault_unique h h'
    · exact absurd h (met_not_fault hm' m)
    · exact absurd h' (met_not_fault hm m')
    · exact ih h h'

theorem complaint_unique {rt : Rt} {a : OpenArgs} {m m' : Bytes} (h : Complaint rt a m) (h' : Complaint rt a m') :
    m = m' := by
  rcases h with ⟨h1, rfl⟩ | ⟨h1, h2⟩ | ⟨h1, h2, _, h3⟩ <;>
    rcases h' with ⟨h1', rfl⟩ | ⟨h1', h2'⟩ | ⟨h1', h2', _, h3'⟩
  · rfl
  · exact absurd h1 h1'
  · exact absurd h1 h1'
  · exact absurd h1' h1
  · exact firstFault_unique h2 h2'
  · exact absurd ⟨_, h2⟩ ((all_met_iff _).1 h2')
  · exact absurd h1' h1
  · exact absurd ⟨_, h2'⟩ ((all_met_iff _).1 h2)
  · exact firstFault_unique h3 h3'

theorem complaint_not_crash {rt : Rt} {a : OpenArgs} {m : Bytes} (h : Complaint rt a m) : ¬ Crash rt a := by
  rintro ⟨h1', h2', h3'⟩
  rcases h with ⟨h1, _⟩ | ⟨_, h2⟩ | ⟨_, _, h3, _⟩
  · exact h1' h1
  · exact (all_met_iff _).1 h2' ⟨_, h2⟩
  · exact h3 h3'

theorem complaint_not_accepted {rt : Rt} {a : OpenArgs} {m : Bytes} (h : Complaint rt a m) : ¬ Accepted rt a := by
  rintro ⟨h1', h2', _, h4'⟩
  rcases h with ⟨h1, _⟩ | ⟨_, h2⟩ | ⟨_, _, _, h4⟩
  · exact h1' h1
  · exact (all_met_iff _).1 h2' ⟨_, h2⟩
  · exact (all_met_iff _).1 h4' ⟨_, h4⟩

/-- C64: the arguments of `open` are rejected with message `msg` exactly if they deserve it: the version
first, then the required settings, then the required facts about the user, each in the documented order. -/
theorem C64_complaint (rt : Rt) (a : OpenArgs) (msg : Bytes) :
    (∃ e, IoEnv.new rt a = some (.error e) ∧ e.display = msg) ↔ Complaint rt a msg := by
  obtain ⟨h1, h2, h3⟩ := new_outcome rt a
  constructor
  · rintro ⟨e, he, rfl⟩; exact h1 e he
  · intro hc
    rcases hn : IoEnv.new rt a with _ | (e | env)
    · exact absurd (h2 hn) (complaint_not_crash hc)
    · exact ⟨e, rfl, complaint_unique (h1 e hn) hc⟩
    · exact absurd (h3 env hn) (complaint_not_accepted hc)

/-- C64: the conversion crashes exactly on an address without netmask in `network_addrs`, if it gets
there. -/
theorem C64_crash (rt : Rt) (a : OpenArgs) : IoEnv.new rt a = none ↔ Crash rt a := by
  obtain ⟨h1, h2, h3⟩ := new_outcome rt a
  refine ⟨h2, fun hc => ?_⟩
  rcases hn : IoEnv.new rt a with _ | (e | env)
  · rfl
  · exact absurd hc (complaint_not_crash (h1 e hn))
  · exact absurd hc.2.2 (h3 env hn).2.2.1

/-- C64: all other arguments are accepted. -/
theorem C64_accepted (rt : Rt) (a : OpenArgs) : (∃ env, IoEnv.new rt a = some (.ok env)) ↔ Accepted rt a := by
  obtain ⟨h1, h2, h3⟩ := new_outcome rt a
  refine ⟨fun ⟨env, h⟩ => h3 env h, fun hc => ?_⟩
  rcases hn : IoEnv.new rt a with _ | (e | env)
  · exact absurd (h2 hn).2.2 hc.2.2.1
  · exact absurd hc (complaint_not_accepted (h1 e hn))
  · exact ⟨env, rfl⟩

/-! ### The environment is determined by the arguments -/

theorem reads_unique {α : Type} {vec : Option (List Bytes)} {k : Bytes} {D : Bytes → α → Prop} {d d' x y : α}
    (hd : d = d') (hx : Reads vec k D d x) (hy : Reads vec k D d' y) : x = y := by
  classical
  by_cases h : ∃ v a, Value vec k v ∧ Utf8 v ∧ D v a
  · obtain ⟨v, a, h1, h2, h3⟩ := h
    rw [hx.1 v a h1 h2 h3, hy.1 v a h1 h2 h3]
  · rw [hx.2 h, hy.2 h, hd]

theorem readsOpt_unique {α : Type} {vec : Option (List Bytes)} {k : Bytes} {D : Bytes → α → Prop} {x y : Option α}
    (hx : ReadsOpt vec k D x) (hy : ReadsOpt vec k D y) : x = y := by
  apply Option.ext
  intro a
  rw [hx a, hy a]

theorem required_unique {α : Type} {p : Bytes → Option α} {D : Bytes → α → Prop} (hp : ∀ s a, p s = some a ↔ D s a)
    {vec : Option (List Bytes)} {k : Bytes} {x y : α} (hx : Required vec k D x) (hy : Required vec k D y) : x = y := by
  obtain ⟨v, h1, _, h3⟩ := hx
  obtain ⟨w, h1', _, h3'⟩ := hy
  obtain rfl := value_unique h1 h1'
  rw [← hp] at h3 h3'
  rw [h3] at h3'
  exact Option.some.inj h3'

theorem userInfo_unique {vec : Option (List Bytes)} {u u' : UserInfo} (h : UserInfoFrom vec u)
    (h' : UserInfoFrom vec u') : u = u' := by
  obtain ⟨a1, a2, a3, a4, a5, a6, a7, a8, a9, a10, a11, a12, a13, a14, a15, a16, a17⟩ := h
  obtain ⟨b1, b2, b3, b4, b5, b6, b7, b8, b9, b10, b11, b12, b13, b14, b15, b16, b17⟩ := h'
  cases u; cases u'
  simp only [UserInfo.mk.injEq]
  refine ⟨?_, ?_, ?_, ?_, ?_, ?_, ?_, ?_, ?_, ?_, ?_, ?_, ?_, ?_, ?_, ?_, ?_⟩
  all_goals first
    | exact required_unique parseStr_iff ‹_› ‹_›
    | exact required_unique (parseUInt_iff 32) ‹_› ‹_›
    | exact required_unique (parseInt_iff 32) ‹_› ‹_›
    | exact required_unique (parseList_iff (parseUInt_iff 32)) ‹_› ‹_›
    | exact readsOpt_unique ‹_› ‹_›
    | exact reads_unique rfl ‹_› ‹_›

theorem settings_unique {parseIp : Bytes → Option Bytes} {vec : Option (List Bytes)} {u u' : Settings}
    (h : SettingsFrom parseIp vec u) (h' : SettingsFrom parseIp vec u') : u = u' := by
  obtain ⟨a1, a2, a3, a4, a5, a6, a7, a8, a9, a10, a11, a12, a13, a14, a15, a16, a17, a18, a19, a20, a21, a22, a23, a24, a25, a26⟩ := h
  obtain ⟨b1, b2, b3, b4, b5, b6, b7, b8, b9, b10, b11, b12, b13, b14, b15, b16, b17, b18, b19, b20, b21, b22, b23, b24, b25, b26⟩ := h'
  cases u; cases u'
  simp only [Settings.mk.injEq]
  refine ⟨?_, ?_, ?_, ?_, ?_, ?_, ?_, ?_, ?_, ?_, ?_, ?_, ?_, ?_, ?_, ?_, ?_, ?_, ?_, ?_, ?_, ?_, ?_, ?_, ?_, ?_⟩
  all_goals first
    | exact required_unique parseStr_iff ‹_› ‹_›
    | exact readsOpt_unique ‹_› ‹_›
    | exact reads_unique rfl ‹_› ‹_›

theorem commandInfo_unique {euid egid : Nat} {vec : Option (List Bytes)} {u u' : CommandInfo}
    (h : CommandInfoFrom euid egid vec u) (h' : CommandInfoFrom euid egid vec u') : u = u' := by
  obtain ⟨a1, a2, a3, a4, a5, a6, a7, a8, a9, a10, a11, a12, a13, a14, a15, a16, a17, a18, a19, a20, a21, a22, a23, a24, a25, a26, a27, a28, a29, a30, a31, a32, a33, a34, a35, a36, a37⟩ := h
  obtain ⟨b1, b2, b3, b4, b5, b6, b7, b8, b9, b10, b11, b12, b13, b14, b15, b16, b17, b18, b19, b20, b21, b22, b23, b24, b25, b26, b27, b28, b29, b30, b31, b32, b33, b34, b35, b36, b37⟩ := h'
  have hg : u.runasGid = u'.runasGid := reads_unique rfl ‹_› ‹_›
  have hu : u.runasUid = u'.runasUid := reads_unique rfl ‹_› ‹_›
  cases u; cases u'
  simp only [CommandInfo.mk.injEq]
  refine ⟨?_, ?_, ?_, ?_, ?_, ?_, ?_, ?_, ?_, ?_, ?_, ?_, ?_, ?_, ?_, ?_, ?_, ?_, ?_, ?_, ?_, ?_, ?_, ?_, ?_, ?_, ?_, ?_, ?_, ?_, ?_, ?_, ?_, ?_, ?_, ?_, ?_⟩
  all_goals first
    | exact readsOpt_unique ‹_› ‹_›
    | exact reads_unique rfl ‹_› ‹_›
    | exact reads_unique hg ‹_› ‹_›
    | exact reads_unique hu ‹_› ‹_›

/-- C52: the arguments of `open` determine the environment completely (the two maps up to what is in
them). -/
theorem C52_determined {rt : Rt} {a : OpenArgs} {env env' : IoEnv} (h : EnvFrom rt a env)
    (h' : EnvFrom rt a env') :
    env' = { env with userEnv := env'.userEnv, pluginOptions := env'.pluginOptions } ∧
    (∀ k, env'.userEnv.getBytes k = env.userEnv.getBytes k) ∧
    ∀ k, env'.pluginOptions.getBytes k = env.pluginOptions.getBytes k := by
  obtain ⟨a1, a2, a3, a4, a5, a6, a7, a8, a9⟩ := h
  obtain ⟨b1, b2, b3, b4, b5, b6, b7, b8, b9⟩ := h'
  have hv : env.apiVersion = env'.apiVersion := by
    have h1 : env.apiVersion.major = env'.apiVersion.major := BitVec.eq_of_toNat_eq (by rw [a1, b1])
    have h2 : env.apiVersion.minor = env'.apiVersion.minor := BitVec.eq_of_toNat_eq (by rw [a2, b2])
    cases hx : env.apiVersion; cases hy : env'.apiVersion
    rw [hx, hy] at h1 h2
    simp_all
  have hp : env.hasPrintf = env'.hasPrintf := by
    rw [Bool.eq_iff_iff, a9, b9]
  have hs := settings_unique a4 b4
  have hu := userInfo_unique a5 b5
  have hc := commandInfo_unique a6 b6
  refine ⟨?_, fun k => ?_, fun k => ?_⟩
  · cases env; cases env'
    simp_all
  · apply Option.ext; intro v; rw [a7, b7]
  · apply Option.ext; intro v; rw [a8, b8]

/-- C52: which environment a session has is decided by the arguments alone. -/
theorem C52_exact (rt : Rt) (a : OpenArgs) (env env' : IoEnv) (h : IoEnv.new rt a = some (.ok env)) :
    EnvFrom rt a env' ↔
      env' = { env with userEnv := env'.userEnv, pluginOptions := env'.pluginOptions } ∧
      (∀ k, env'.userEnv.getBytes k = env.userEnv.getBytes k) ∧
      ∀ k, env'.pluginOptions.getBytes k = env.pluginOptions.getBytes k := by
  have he := C52_environment h
  constructor
  · exact C52_determined he
  · rintro ⟨h1, h2, h3⟩
    obtain ⟨a1, a2, a3, a4, a5, a6, a7, a8, a9⟩ := he
    have b7 : ∀ k v, env'.userEnv.getBytes k = some v ↔ Value a.userEnv k v := fun k v => by rw [h2]; exact a7 k v
    have b8 : ∀ k v, env'.pluginOptions.getBytes k = some v ↔ Value a.pluginOptions k v :=
      fun k v => by rw [h3]; exact a8 k v
    rw [h1]
    exact ⟨a1, a2, a3, a4, a5, a6, b7, b8, a9⟩

/-- C32: the option vector determines the plugin's options. -/
theorem C32_determined {vec : Option (List Bytes)} {o o' : PluginOptions} (h : PluginOptionsFrom vec o)
    (h' : PluginOptionsFrom vec o') : o = o' := by
  obtain ⟨a1, a2, a3, a4, a5, a6⟩ := h
  obtain ⟨b1, b2, b3, b4, b5, b6⟩ := h'
  cases o; cases o'
  simp only [PluginOptions.mk.injEq]
  refine ⟨?_, ?_, ?_, ?_, ?_, ?_⟩ <;> exact reads_unique rfl ‹_› ‹_›

/-- Each outcome occurs: the sample arguments are accepted, with API version 1.8 they are rejected, so
they are without a usable `pid`, and with an address without netmask they crash the conversion. -/
example : Accepted sampleRt sampleArgs ∧
    Complaint sampleRt { sampleArgs with version := 0x10008#32 }
      (b! "sudo called plugin with an API version of 1.8, but a minimum of 1.9 is required") ∧
    Complaint sampleRt { sampleArgs with userInfo := some ((sampleArgs.userInfo.getD []) ++ [b! "pid=x", b! "uid=x"]) }
      (b! "sudo called plugin with an unparseable value for pid: x") ∧
    Complaint sampleRt { sampleArgs with settings := some [b! "plugin_path=/p", b! "network_addrs=::1"] }
      (b! "sudo called plugin without providing a value for plugin_dir") ∧
    Crash { sampleRt with parseIp := fun b => some b }
      { sampleArgs with settings := some ((sampleArgs.settings.getD []) ++ [b! "network_addrs=::1"]) } := by
  refine ⟨(C64_accepted ..).1 ?_, (C64_complaint ..).1 ?_, (C64_complaint ..).1 ?_, (C64_complaint ..).1 ?_,
    (C64_crash ..).1 ?_⟩
  · have h : ((IoEnv.new sampleRt sampleArgs).bind Except.toOption).isSome = true := by decide +kernel
    rcases hn : IoEnv.new sampleRt sampleArgs with _ | (_ | env) <;> rw [hn] at h
    · exact absurd h (by simp)
    · exact absurd h (by simp [Except.toOption])
    · exact ⟨env, rfl⟩
  · exact ⟨.unsupportedApiVersion 1 8, rfl, by decide +kernel⟩
  · exact ⟨.optionInvalid (b! "pid") (b! "x"), rfl, by decide +kernel⟩
  · exact ⟨.optionMissing (b! "plugin_dir"), rfl, by decide +kernel⟩
  · decide +kernel

end SudoPair
