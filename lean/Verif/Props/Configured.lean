import Verif.Props.Mirror
import Verif.Props.Rejection
/-
C06 for the option vectors that sudo passes on, and for what `open` does.
-/
namespace SudoPair
open Spec Core

/-- The two vectors give the same value to every key but `k`. -/
def SameBut (k : Bytes) (vec vec' : Option (List Bytes)) : Prop :=
  ∀ k' v, k' ≠ k → (Value vec k' v ↔ Value vec' k' v)

theorem reads_same {α : Type} {vec vec' : Option (List Bytes)} {k k' : Bytes} {D : Bytes → α → Prop} {d x : α}
    (hs : SameBut k vec vec') (hk : k' ≠ k) (h : Reads vec k' D d x) : Reads vec' k' D d x :=
  ⟨fun v a h1 => h.1 v a ((hs k' v hk).2 h1),
   fun hn => h.2 (fun ⟨v, a, h1, h2⟩ => hn ⟨v, a, (hs k' v hk).1 h1, h2⟩)⟩

/-- The environment with other plugin options. -/
theorem new_options {rt : Rt} {a : OpenArgs} {env : IoEnv} (vec' : Option (List Bytes))
    (h : IoEnv.new rt a = some (.ok env)) :
    IoEnv.new rt { a with pluginOptions := vec' } = some (.ok { env with pluginOptions := .fromRaw vec' }) := by
  unfold IoEnv.new at h ⊢
  split at h
  · simp at h
  rename_i v hv
  rw [show IoEnv.checkVersion ({ a with pluginOptions := vec' } : OpenArgs).version = .ok v from hv]
  split at h
  · simp at h
  · simp at h
  rename_i st hst
  split at h
  · simp at h
  rename_i ui hui
  simp only [Option.some.injEq, Except.ok.injEq] at h
  subst h
  simp only [hst, hui]

theorem isExempt_reconfigured (d : Bool) (p : Pair) (m : OptionMap) (o : PluginOptions) :
    Pair.isExempt d { p with env := { p.env with pluginOptions := m }, options := o } =
      Pair.isExempt d { p with options := o } := rfl

/-- Exempt before and after, in one build, from the decision alone. -/
theorem options_enforced {rt : Rt} {a : OpenArgs} {env : IoEnv} {vec' : Option (List Bytes)} {l' : List Nat}
    (h : IoEnv.new rt a = some (.ok env)) (hs : SameBut (b! "gids_enforced") a.pluginOptions vec')
    (hl' : Reads vec' (b! "gids_enforced") DenotesIds [0] l') :
    PluginOptions.ofMap (.fromRaw vec') = { PluginOptions.ofMap env.pluginOptions with gidsEnforced := l' } := by
  obtain ⟨h1, h2, h3, h4, _, h6⟩ := C32_session h
  exact C32_determined (C32_plugin_options vec')
    ⟨reads_same hs (by decide) h1, reads_same hs (by decide) h2, reads_same hs (by decide) h3,
     reads_same hs (by decide) h4, hl', reads_same hs (by decide) h6⟩

theorem options_exempted {rt : Rt} {a : OpenArgs} {env : IoEnv} {vec' : Option (List Bytes)} {l' : List Nat}
    (h : IoEnv.new rt a = some (.ok env)) (hs : SameBut (b! "gids_exempted") a.pluginOptions vec')
    (hl' : Reads vec' (b! "gids_exempted") DenotesIds [] l') :
    PluginOptions.ofMap (.fromRaw vec') = { PluginOptions.ofMap env.pluginOptions with gidsExempted := l' } := by
  obtain ⟨h1, h2, h3, h4, h5, _⟩ := C32_session h
  exact C32_determined (C32_plugin_options vec')
    ⟨reads_same hs (by decide) h1, reads_same hs (by decide) h2, reads_same hs (by decide) h3,
     reads_same hs (by decide) h4, reads_same hs (by decide) h5, hl'⟩

/-- C06, for `open`: take arguments whose session is not exempt and add gids to `gids_enforced`, leaving the other
options as they are.  Then `open` still succeeds only with a pair's approval. -/
theorem C06_open_enforced {rt : Rt} {a : OpenArgs} {env : IoEnv} {vec' : Option (List Bytes)} {l l' : List Nat}
    (hnew : IoEnv.new rt a = some (.ok env)) (hcmd : env.commandInfo.command ≠ []) (hx : ¬ SessionExempt env)
    (hs : SameBut (b! "gids_enforced") a.pluginOptions vec')
    (hl : Reads a.pluginOptions (b! "gids_enforced") DenotesIds [0] l)
    (hl' : Reads vec' (b! "gids_enforced") DenotesIds [0] l') (hsub : ∀ g ∈ l, g ∈ l') {st : State} {h : Hist}
    (hr : Runs (Core.open rt { a with pluginOptions := vec' } Core.init) (.ok (1, st)) h) :
    ∃ env' fd, st.env = some env' ∧ env' = { env with pluginOptions := env'.pluginOptions } ∧
      ApprovedSession env' fd h := by
  have hnew' := new_options vec' hnew
  have ho := options_enforced hnew hs hl'
  obtain ⟨p, rfl, hp⟩ := fresh_open_stored hr hnew' hcmd
  have hl1 : (PluginOptions.ofMap env.pluginOptions).gidsEnforced = l := reads_unique rfl (C32_session hnew).2.2.2.2.1 hl
  have hx' : ¬ SessionExempt { env with pluginOptions := .fromRaw vec' } := by
    intro hx'
    apply hx
    change Exempt { env with pluginOptions := .fromRaw vec' } (PluginOptions.ofMap (.fromRaw vec')) at hx'
    rw [ho] at hx'
    rcases hx' with h | h | h | h | h | h
    · exact Or.inl h
    · exact Or.inr (Or.inl h)
    · exact Or.inr (Or.inr (Or.inl h))
    · exact Or.inr (Or.inr (Or.inr (Or.inl h)))
    · exact Or.inr (Or.inr (Or.inr (Or.inr (Or.inl h))))
    · exact Or.inr (Or.inr (Or.inr (Or.inr (Or.inr (fun g hg => h g (hsub g (hl1 ▸ hg)))))))
  obtain ⟨fd, _, happ⟩ := approvedSession_of hx' hp
  exact ⟨_, fd, rfl, rfl, happ⟩

/-- C06, for `open`: take arguments with which `open` succeeds without asking anybody and add gids to `gids_exempted`,
leaving the other options as they are.  Then it still does. -/
theorem C06_open_exempted {rt : Rt} {a : OpenArgs} {env : IoEnv} {vec' : Option (List Bytes)} {l l' : List Nat}
    (hnew : IoEnv.new rt a = some (.ok env)) (hx : SessionExempt env)
    (hs : SameBut (b! "gids_exempted") a.pluginOptions vec')
    (hl : Reads a.pluginOptions (b! "gids_exempted") DenotesIds [] l)
    (hl' : Reads vec' (b! "gids_exempted") DenotesIds [] l') (hsub : ∀ g ∈ l, g ∈ l')
    {st0 : State} (hr0 : Runs (Core.open rt a Core.init) (.ok (1, st0)) []) {o : Out (Int × State)} {h : Hist}
    (hr : Runs (Core.open rt { a with pluginOptions := vec' } Core.init) o h) :
    h = [] ∧ ∃ st, o = .ok (1, st) := by
  have hnew' := new_options vec' hnew
  have ho := options_exempted hnew hs hl'
  have hl1 : (PluginOptions.ofMap env.pluginOptions).gidsExempted = l := reads_unique rfl (C32_session hnew).2.2.2.2.2 hl
  classical
  by_cases hcmd : env.commandInfo.command = []
  · generalize hoo : o = o' at hr
    cases coreOpen_runs hr with
    | empty k1 k2 => exact ⟨rfl, _, rfl⟩
    | envPanic k1 => rw [hnew'] at k1; simp at k1
    | envErr k1 => rw [hnew'] at k1; simp at k1
    | envKilled k1 => rw [hnew'] at k1; simp at k1
    | panic k1 k2 | killed k1 k2 | refused k1 k2 | refusedKilled k1 k2 | accepted k1 k2 | again k1 k2 | againKilled k1 k2 =>
      rw [hnew'] at k1; simp only [Option.some.injEq, Except.ok.injEq] at k1; subst k1
      exact absurd hcmd k2
  · have h0 : (Pair.ofEnv env).isExempt rt.debug = some true := by
      obtain ⟨p, _, hp⟩ := fresh_open_stored hr0 hnew hcmd
      rcases hd : (Pair.ofEnv env).isExempt rt.debug with _ | b
      · generalize ho' : Out.ok (Except.ok p) = o1 at hp
        generalize ([] : Hist) = h1 at hp
        cases hp <;> simp_all
      · rw [(C04_rule rt.debug _ b hd).2 hx]
    have h1 := C06_exempted_mono rt.debug (Pair.ofEnv env) l' (fun g hg => hsub g (hl1 ▸ hg)) h0
    have h2 : (Pair.ofEnv { env with pluginOptions := .fromRaw vec' }).isExempt rt.debug = some true := by
      unfold Pair.ofEnv
      simp only
      rw [ho]
      exact h1
    obtain ⟨h3, st, h4, _⟩ := open_of_exempt (st := Core.init) hnew' rfl h2 hr
    exact ⟨h3, st, h4⟩

/-- Such option vectors: none at all, and one that also enforces gid 5. -/
example : SameBut (b! "gids_enforced") none (some [b! "gids_enforced=0,5"]) ∧
    Reads none (b! "gids_enforced") DenotesIds [0] [0] ∧
    Reads (some [b! "gids_enforced=0,5"]) (b! "gids_enforced") DenotesIds [0] [0, 5] := by
  refine ⟨fun k v hk => ?_, (C32_plugin_options none).2.2.2.2.1, ?_⟩
  · rw [← fromRaw_getBytes, ← fromRaw_getBytes]
    have h1 : (OptionMap.fromRaw (some [b! "gids_enforced=0,5"])).getBytes k = none := by
      have h2 : OptionMap.fromRaw (some [b! "gids_enforced=0,5"]) = [(b! "gids_enforced", b! "0,5")] := by decide +kernel
      rw [h2]
      simp [OptionMap.getBytes, hk.symm]
    rw [h1]
    rfl
  · have := (C32_plugin_options (some [b! "gids_enforced=0,5"])).2.2.2.2.1
    rwa [show (PluginOptions.ofMap (.fromRaw (some [b! "gids_enforced=0,5"]))).gidsEnforced = [0, 5] by decide +kernel] at this

/-- C06: writing `,` and a number behind the value of either option adds that gid and keeps the others. -/
theorem C06_append {v t : Bytes} {l : List Nat} {n : Nat} (h : DenotesIds v l) (hn : DenotesU 32 t n) :
    DenotesIds (v ++ 44 :: t) (l ++ [n]) := by
  obtain ⟨first, rest, rfl, h2, h3, h4⟩ := h
  have hdig : ∀ {ds : Bytes}, Decimal ds n → (44 : UInt8) ∉ ds := by
    intro ds hd hm
    have h44 := hd.2.1 44 hm
    revert h44
    unfold IsDigit
    decide
  have ht : (44 : UInt8) ∉ t := by
    rcases hn.2 with hd | ⟨ds, rfl, hd⟩
    · exact hdig hd
    · intro hm
      rcases List.mem_cons.1 hm with hm | hm
      · exact absurd hm (by decide)
      · exact hdig hd hm
  refine ⟨first, rest ++ [t], by simp, ?_, by simpa using h3, ?_⟩
  · intro p hp
    rw [← List.cons_append] at hp
    rcases List.mem_append.1 hp with hp | hp
    · exact h2 p hp
    · rw [List.mem_singleton.1 hp]; exact ht
  · intro q hq
    rw [← List.cons_append, List.zip_append h3] at hq
    rcases List.mem_append.1 hq with hq | hq
    · exact h4 q hq
    · simp only [List.zip_cons_cons, List.zip_nil_right, List.mem_singleton] at hq
      subst hq
      exact hn

/-- Giving `gids_enforced` a first value is not adding to it: it replaces the default, gid 0.  With the sample
arguments somebody must approve; with `gids_enforced=5` nobody is asked. -/
example :
    retOf (Core.open sampleRt sampleArgs Core.init []).1 = none ∧
    retOf (Core.open sampleRt { sampleArgs with pluginOptions := some [b! "gids_enforced=5"] } Core.init []).1 = some 1 ∧
    retOf (Core.open sampleRt { sampleArgs with pluginOptions := some [b! "gids_enforced=0,5"] } Core.init []).1 = none := by
  decide +kernel

end SudoPair
