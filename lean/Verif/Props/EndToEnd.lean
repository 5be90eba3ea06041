import Verif.Spec.Scene
import Verif.Props.Frontend
import Verif.Props.Together
/-
C76: from the consent of the pair to what the user gets to see, with sudo's front end, other processes and other
sessions all at once.
-/
namespace SudoPair
open Spec Core

theorem actsOf_append (l1 l2 : List Scene) : actsOf (l1 ++ l2) = actsOf l1 ++ actsOf l2 := List.filterMap_append

theorem bustleOf_append (l1 l2 : List Scene) : bustleOf (l1 ++ l2) = bustleOf l1 ++ bustleOf l2 := List.filterMap_append

theorem apart_append (l1 l2 : List Bustle) : apart (l1 ++ l2) = apart l1 ++ apart l2 := List.filterMap_append

/-- The plugin's interactions are the same, however one gets at them. -/
theorem owns_scene (l : List Scene) : owns (apart (bustleOf l)) = sysOf (actsOf l) := by
  induction l with
  | nil => rfl
  | cons x l ih =>
    have h1 : bustleOf (x :: l) = bustleOf [x] ++ bustleOf l := bustleOf_append [x] l
    have h2 : actsOf (x :: l) = actsOf [x] ++ actsOf l := actsOf_append [x] l
    rw [h1, h2, apart_append, owns_append, sysOf_append, ih]
    congr 1
    rcases x with (_ | _ | _ | _) | _ | _ <;> rfl

/-- Where an interaction of the plugin is among the events. -/
theorem scene_split {h1 h2 : Hist} {e : Ev} {l : List Scene} (h : sysOf (actsOf l) = h1 ++ e :: h2) :
    ∃ l1 l2, l = l1 ++ .act (.sys e) :: l2 ∧ sysOf (actsOf l1) = h1 ∧ sysOf (actsOf l2) = h2 := by
  induction l generalizing h1 with
  | nil => simp [actsOf, sysOf] at h
  | cons x l ih =>
    have h2 : actsOf (x :: l) = actsOf [x] ++ actsOf l := actsOf_append [x] l
    rw [h2, sysOf_append] at h
    by_cases hx : sysOf (actsOf [x]) = []
    · rw [hx, List.nil_append] at h
      obtain ⟨l1, l2, rfl, k1, k2⟩ := ih h
      refine ⟨x :: l1, l2, rfl, ?_, k2⟩
      have h3 : actsOf (x :: l1) = actsOf [x] ++ actsOf l1 := actsOf_append [x] l1
      rw [h3, sysOf_append, hx, k1, List.nil_append]
    · obtain ⟨e', rfl⟩ : ∃ e', x = .act (.sys e') := by
        rcases x with (e' | _ | _ | _) | _ | _
        · exact ⟨e', rfl⟩
        all_goals exact absurd rfl hx
      have h4 : sysOf (actsOf [.act (.sys e')]) = [e'] := rfl
      rw [h4] at h
      rcases h1 with _ | ⟨y, h1⟩
      · simp only [List.cons_append, List.nil_append, List.cons.injEq] at h
        obtain ⟨rfl, h⟩ := h
        exact ⟨[], l, rfl, rfl, h⟩
      · simp only [List.cons_append, List.nil_append, List.cons.injEq] at h
        obtain ⟨rfl, h⟩ := h
        obtain ⟨l1, l2, rfl, k1, k2⟩ := ih h
        refine ⟨.act (.sys e') :: l1, l2, rfl, ?_, k2⟩
        have h3 : actsOf (.act (.sys e') :: l1) = .sys e' :: actsOf l1 := rfl
        rw [h3, ← k1]; rfl

/-- The command is started once, after `open`. -/
theorem start_inv {rt : Rt} {a : OpenArgs} {t1 t2 : List Act} (hs : SudoSession rt a (t1 ++ .start :: t2)) :
    ∃ st r, Runs (Core.open rt a Core.init) (.ok (1, st)) (sysOf t1) ∧ Running rt st t2 r := by
  generalize ht : t1 ++ Act.start :: t2 = t0 at hs
  cases hs with
  | @refused o h hr hno =>
    have : Act.start ∈ h.map Act.sys ++ [.stop] := by rw [← ht]; simp
    simp at this
  | @runs st h t r hr hrun =>
    have hst := running_no_start hrun
    have hns : Act.start ∉ h.map Act.sys := by simp
    rcases List.append_eq_append_iff.1 ht.symm with ⟨x, rfl, hx⟩ | ⟨x, hx, hx'⟩
    · rcases x with _ | ⟨y, x⟩
      · simp only [List.nil_append, List.cons.injEq, true_and] at hx
        subst hx
        exact ⟨st, r, by rw [List.append_nil, sysOf_map]; exact hr, hrun⟩
      · simp only [List.cons_append, List.cons.injEq] at hx
        obtain ⟨_, rfl⟩ := hx
        simp at hst
    · rcases x with _ | ⟨y, x⟩
      · simp only [List.nil_append, List.cons.injEq, true_and] at hx'
        subst hx'
        rw [List.append_nil] at hx
        exact ⟨st, r, by rw [← hx, sysOf_map]; exact hr, hrun⟩
      · simp only [List.cons_append, List.cons.injEq] at hx'
        obtain ⟨rfl, _⟩ := hx'
        exact absurd (hx ▸ by simp) hns

theorem mem_apart_bustle {l : List Scene} {c : Cred} {d : Deed} :
    .inr (c, d) ∈ apart (bustleOf l) ↔ .other c d ∈ l := by
  induction l with
  | nil => simp [apart, bustleOf]
  | cons x l ih =>
    have h1 : bustleOf (x :: l) = bustleOf [x] ++ bustleOf l := bustleOf_append [x] l
    rw [h1, apart_append, List.mem_append, ih, List.mem_cons]
    apply or_congr _ Iff.rfl
    rcases x with (_ | _ | _ | _) | _ | _ <;> simp [apart, bustleOf, eq_comm]

theorem apart_split {l : List Scene} {h1 h2 : List Happening} {e : Ev} (h : apart (bustleOf l) = h1 ++ .inl e :: h2) :
    ∃ l1 l2, l = l1 ++ .act (.sys e) :: l2 ∧ apart (bustleOf l1) = h1 ∧ apart (bustleOf l2) = h2 := by
  unfold apart bustleOf at h
  rw [List.filterMap_filterMap, List.filterMap_eq_append_iff] at h
  obtain ⟨l1, l2, rfl, h3, h4⟩ := h
  rw [List.filterMap_eq_cons_iff] at h4
  obtain ⟨m1, x, m2, rfl, h5, h6, h7⟩ := h4
  have hx : x = .act (.sys e) := by
    rcases x with (_ | _ | _ | _) | _ | _ <;> simp at h6
    rw [h6]
  subst hx
  refine ⟨l1 ++ m1, m2, by simp, ?_, ?_⟩
  · unfold apart bustleOf
    rw [List.filterMap_filterMap, List.filterMap_append, h3, List.filterMap_eq_nil_iff.2 h5, List.append_nil]
  · unfold apart bustleOf
    rw [List.filterMap_filterMap, h7]

/-- What has been said about the surroundings: the ids that `chown` would take for "leave it", the place of the socket, and
the others, who act within their permissions, with any number of other sessions. -/
structure Surroundings (rt : Rt) (env : IoEnv) (S : Site) (names : Bytes → Bool) (w : World) (l : List Scene) : Prop where
  user  : env.commandInfo.runasEuid ≠ noId ∨ rt.euid = 0
  group : env.userInfo.uid = env.commandInfo.runasEuid → env.commandInfo.runasEgid ≠ noId
  path  : S.path = sessionPath env
  euid  : S.euid = rt.euid
  dir   : ∀ d, SamePath d (PluginOptions.ofMap env.pluginOptions).socketDir → S.isDir d = true
  crowd : Crowd env S names (bustleOf l)
  possible : ∃ w', S.bustles names w (bustleOf l) = some w'

/-- C76: in a session that is not exempt, whatever else happens: before the command is started somebody has connected to
the approval socket who may act for the target (or an insider has interfered, by other means than sudo_pair); they have
been sent the whole prompt of this session, and have answered `y` or `Y` to it; and from then on, at every instant,
everything that sudo has passed on (output of logged facilities to the user's screen, resizes) has been sent to them
before, completely and in order, on that same connection. -/
theorem C76_consent {rt : Rt} {a : OpenArgs} {env : IoEnv} {S : Site} {names : Bytes → Bool} {w : World} {l1 l2 : List Scene}
    (hs : SudoSession rt a (actsOf (l1 ++ .act .start :: l2))) (hnew : IoEnv.new rt a = some (.ok env))
    (hcmd : env.commandInfo.command ≠ []) (hne : ¬ SessionExempt env)
    (hw : Surroundings rt env S names w (l1 ++ .act .start :: l2)) :
    ∃ k0 d fst k1 lis conn k2 reply b k3 template prompt,
      l1 = k0 ++ .act (.sys ⟨.stat d, some fst⟩) :: (k1 ++ .act (.sys ⟨.accept lis, some conn⟩) :: (k2 ++ .act (.sys reply) :: k3)) ∧
      ((Vouched env conn.peer ∧ .other conn.peer .connect ∈ k1) ∨
        ∃ c d, .other c d ∈ k1 ∧ d.Meddles ∧ Insider rt env c) ∧
      TemplateRead (optionsOf env).pairPromptPath builtinPairPrompt (sysOf (actsOf k2)) template ∧
      Expands 37 (promptVars (Pair.ofEnv env)) template prompt ∧ delivered conn.fd (sysOf (actsOf k2)) = prompt ∧
      (∀ e ∈ sysOf (actsOf (k0 ++ k1 ++ k2)), ∀ fd, ¬ IsRead fd e) ∧
      Read1 b conn.fd reply ∧ (b = (Char.toNat 'y').toUInt8 ∨ b = (Char.toNat 'Y').toUInt8) ∧
      ∀ u, u <+: l2 → (passed (actsOf u)).flatMap (payload env.commandInfo) <+: delivered conn.fd (sysOf (actsOf u)) := by
  have hs' := hs
  rw [actsOf_append] at hs'
  have e0 : actsOf (.act .start :: l2) = .start :: actsOf l2 := rfl
  rw [e0] at hs'
  obtain ⟨st, r, hr, hrun⟩ := start_inv hs'
  obtain ⟨p, rfl, hpo⟩ := fresh_open_stored hr hnew hcmd
  obtain ⟨fd, rfl, happ⟩ := approvedSession_of hne hpo
  obtain ⟨before, between, after, lis, conn, reply, b, t, pr, h1, rfl, -, h2, h3, h4, h5, h6, h7, h8⟩ := happ
  obtain ⟨la, lb, rfl, ha, hb⟩ := scene_split h1
  obtain ⟨k2, k3, rfl, hk2, hk3⟩ := scene_split hb
  obtain ⟨w', hw'⟩ := hw.possible
  rw [C73_undisturbed hw.crowd.socket hw.crowd.dir hw.crowd.sessions, bustleOf_append, apart_append, run_append] at hw'
  cases hw1 : S.run w (apart (bustleOf (la ++ .act (.sys ⟨.accept lis, some conn⟩) :: (k2 ++ .act (.sys reply) :: k3)))) with
  | none => rw [hw1] at hw'; simp at hw'
  | some w1 =>
  have e1 : apart (bustleOf (la ++ .act (.sys ⟨.accept lis, some conn⟩) :: (k2 ++ .act (.sys reply) :: k3))) =
      apart (bustleOf la) ++ .inl ⟨.accept lis, some conn⟩ :: apart (bustleOf (k2 ++ .act (.sys reply) :: k3)) := by
    rw [bustleOf_append, apart_append]; rfl
  rw [e1] at hw1
  obtain ⟨l1, d, fst, l2', h9, h10, h11, h12, h13⟩ := C67_peer hr hnew (env := env) rfl hw.user hw.group hw.path hw.euid hw.dir
    (l := apart (bustleOf la)) (l3 := apart (bustleOf (k2 ++ .act (.sys reply) :: k3))) (fd := lis) (conn := conn)
    (by rw [← e1, owns_scene]) hw1
  obtain ⟨k0, k1, rfl, -, h14⟩ := apart_split h9
  refine ⟨k0, d, fst, k1, lis, conn, k2, reply, b, k3, t, pr, by simp, ?_, hk2 ▸ h4, h5, hk2 ▸ h6, ?_, h7, h8, ?_⟩
  · rw [← h14] at h13
    simpa only [mem_apart_bustle] using h13
  · rw [actsOf_append, sysOf_append] at ha
    intro e he
    rw [actsOf_append, actsOf_append, sysOf_append, sysOf_append, List.mem_append, List.mem_append] at he
    rcases he with (he | he) | he
    · exact h2 e (by rw [← ha]; exact List.mem_append_left _ he)
    · refine h2 e ?_
      rw [← ha]
      exact List.mem_append_right _ (List.mem_cons_of_mem _ he)
    · exact h3 e (by rw [← hk2]; exact he)
  · rintro u ⟨v, rfl⟩
    rw [actsOf_append] at hrun
    exact (running_inv rfl hrun).2 _ (List.prefix_append _ _)

/-- C76: nothing is passed on before the command is started. -/
theorem C76_nothing_before {rt : Rt} {a : OpenArgs} {env : IoEnv} {l : List Scene}
    (hs : SudoSession rt a (actsOf l)) (hnew : IoEnv.new rt a = some (.ok env))
    (hcmd : env.commandInfo.command ≠ []) (hne : ¬ SessionExempt env) {u v : List Scene} {c : Call}
    (hl : l = u ++ .act (.pass c) :: v) : .act .start ∈ u := by
  have h1 := (C59_pair_sees_first rt a env _ hs hnew hcmd hne).1 (actsOf (u ++ [.act (.pass c)])) (by
    rw [hl, List.append_cons u _ v, actsOf_append _ v]
    exact List.prefix_append _ _)
  rw [actsOf_append, passed_append] at h1
  have h2 : Act.start ∈ actsOf u ++ actsOf [.act (.pass c)] := Classical.byContradiction fun hno => by
    have := h1 hno
    simp [actsOf, passed] at this
  rcases List.mem_append.1 h2 with h2 | h2
  · obtain ⟨x, hx, hx'⟩ := List.mem_filterMap.1 h2
    rcases x with x | _ | _ <;> simp at hx'
    subst hx'
    exact hx
  · simp [actsOf] at h2

/-- C76: nobody gets a command started on their own: if all the processes that are not the plugin's are those of the
invoking user, then in a session that is not exempt the command is started only if they asked for a group that they are
in anyway, whatever sessions there are besides. -/
theorem C76_alone {rt : Rt} {a : OpenArgs} {env : IoEnv} {S : Site} {names : Bytes → Bool} {w : World} {l : List Scene}
    (hs : SudoSession rt a (actsOf l)) (hnew : IoEnv.new rt a = some (.ok env))
    (hcmd : env.commandInfo.command ≠ []) (hne : ¬ SessionExempt env) (hw : Surroundings rt env S names w l)
    (h0 : env.userInfo.uid ≠ 0) (h1 : env.userInfo.uid ≠ rt.euid)
    (halone : ∀ c d, .other c d ∈ l → c = ⟨env.userInfo.uid, env.userInfo.gid :: env.userInfo.groups⟩)
    (hstart : .act .start ∈ l) :
    env.settings.runasGroup ≠ none ∧
      (env.commandInfo.runasEgid = env.userInfo.gid ∨ env.commandInfo.runasEgid ∈ env.userInfo.groups) := by
  obtain ⟨l1, l2, rfl⟩ := List.append_of_mem hstart
  rw [actsOf_append] at hs
  obtain ⟨st, r, hr, hrun⟩ := start_inv (t2 := actsOf l2) hs
  obtain ⟨p, rfl, hpo⟩ := fresh_open_stored hr hnew hcmd
  obtain ⟨w', hw'⟩ := hw.possible
  rw [C73_undisturbed hw.crowd.socket hw.crowd.dir hw.crowd.sessions, bustleOf_append, apart_append, run_append] at hw'
  cases hw1 : S.run w (apart (bustleOf l1)) with
  | none => rw [hw1] at hw'; simp at hw'
  | some w1 =>
  refine C67_not_alone hr rfl hcmd hne hw.user hw.group hw.path hw.euid hw.dir (owns_scene l1) hw1 h0 h1 fun x hx => ?_
  obtain ⟨y, hy, hy'⟩ := List.mem_filterMap.1 hx
  rcases y with y | ⟨c, d⟩ <;> simp at hy'
  subst hy'
  exact halone c d (List.mem_append_left _ (mem_apart_bustle.1 hy))

/-! ### Concrete cases -/

/-- A session with sudo's front end: user 1000 runs a command as user 1001, who connects once the permissions of the
socket are set, and approves; another process has a whole session of its own in the middle. -/
def sampleScene : List Scene :=
  let t := frontend sampleRt otherUserArgs [.log .stdout (b! "ab"), .log .ttyin (b! "k"), .log .stdout (b! "c")]
    (List.replicate 90 (truly ⟨1001, [1001]⟩))
  (t.take 9).map .act ++ .other ⟨1001, [1001]⟩ .connect ::
    ((secondHist secondArgs).map (.session 0) ++ (t.drop 9).map .act)

theorem actsOf_sampleScene : actsOf sampleScene =
    frontend sampleRt otherUserArgs [.log .stdout (b! "ab"), .log .ttyin (b! "k"), .log .stdout (b! "c")]
      (List.replicate 90 (truly ⟨1001, [1001]⟩)) := by
  have h1 : ∀ t : List Act, actsOf (t.map .act) = t := by intro t; induction t <;> simp_all [actsOf]
  have h2 : ∀ h : Hist, actsOf (h.map (.session 0)) = [] := by intro h; induction h <;> simp_all [actsOf]
  have h3 : ∀ c d l, actsOf (.other c d :: l) = actsOf l := fun _ _ _ => rfl
  simp only [sampleScene, actsOf_append, h1, h2, h3, List.nil_append, List.take_append_drop]

theorem ofProcess_sampleScene (i) : ofProcess i (bustleOf sampleScene) = if i = 0 then secondHist secondArgs else [] := by
  have h1 : ∀ t : List Act, ofProcess i (bustleOf (t.map .act)) = [] := by
    intro t
    induction t with
    | nil => rfl
    | cons a t ih => cases a <;> simpa [ofProcess, bustleOf] using ih
  have h2 : ∀ h : Hist, ofProcess i (bustleOf (h.map (.session 0))) = if i = 0 then h else [] := by
    intro h
    induction h with
    | nil => simp [ofProcess, bustleOf]
    | cons e h ih =>
      by_cases hi : i = 0
      · subst hi; simp [ofProcess, bustleOf] at ih ⊢; exact ih
      · simp only [if_neg hi] at ih ⊢
        simp [ofProcess, bustleOf, Ne.symm hi]
  have h3 : ∀ a b : List Bustle, ofProcess i (a ++ b) = ofProcess i a ++ ofProcess i b := fun _ _ => List.filterMap_append
  have h4 : ∀ c d l, ofProcess i (bustleOf (.other c d :: l)) = ofProcess i (bustleOf l) := fun _ _ _ => rfl
  simp only [sampleScene, bustleOf_append, h3, h1, h2, h4, List.append_nil, List.nil_append]

/-- Non-vacuity of C76: that session meets the hypotheses; the command is started, and the output is passed on. -/
example : ∃ env l1 l2, sampleScene = l1 ++ .act .start :: l2 ∧ SudoSession sampleRt otherUserArgs (actsOf sampleScene) ∧
    IoEnv.new sampleRt otherUserArgs = some (.ok env) ∧ env.commandInfo.command ≠ [] ∧ ¬ SessionExempt env ∧
    Surroundings sampleRt env crowdSite crowdNames sampleWorld sampleScene ∧
    (passed (actsOf sampleScene)).flatMap (payload env.commandInfo) = b! "abc" ∧
    env.userInfo.uid ≠ 0 ∧ env.userInfo.uid ≠ sampleRt.euid := by
  have hs : SudoSession sampleRt otherUserArgs (actsOf sampleScene) := by
    rw [actsOf_sampleScene]
    exact frontend_session _ _ _ _ (by simp [Call.isLog])
  have hw : (crowdSite.bustles crowdNames sampleWorld (bustleOf sampleScene)).isSome = true := by decide +kernel
  have hstart : (sampleScene.any fun | .act .start => true | _ => false) = true := by decide +kernel
  have h5 : ((IoEnv.new sampleRt otherUserArgs).bind Except.toOption).map
      (fun env => (env.commandInfo.command, (Pair.ofEnv env).isExempt false, (Pair.ofEnv env).socketPath,
        env.commandInfo.runasEuid, env.userInfo.uid)) =
      some (b! "/bin/ls", some false, b! "/var/run/sudo_pair/1000.42.sock", 1001, 1000) := by decide +kernel
  have h12 : ((IoEnv.new sampleRt otherUserArgs).bind Except.toOption).map
      (fun env => (passed (actsOf sampleScene)).flatMap (payload env.commandInfo)) = some (b! "abc") := by decide +kernel
  have h11 : ((IoEnv.new sampleRt otherUserArgs).bind Except.toOption).map
      (fun env => (PluginOptions.ofMap env.pluginOptions).socketDir) = some (b! "/var/run/sudo_pair") := by decide +kernel
  obtain ⟨x, hx, hx'⟩ := List.any_eq_true.1 hstart
  have hx2 : x = .act .start := by
    rcases x with (_ | _ | _ | _) | _ | _ <;> simp at hx'
    rfl
  subst hx2
  obtain ⟨l1, l2, hl⟩ := List.append_of_mem hx
  rcases hn : IoEnv.new sampleRt otherUserArgs with _ | (e | env) <;> rw [hn] at h5 h11 h12
  · simp at h5
  · simp [Except.toOption] at h5
  · simp only [Except.toOption, Option.bind_some, Option.map_some, Option.some.injEq, Prod.mk.injEq] at h5 h11 h12
    obtain ⟨h6, h7, h8, h9, h10⟩ := h5
    have hne : ¬ SessionExempt env := fun hx => by
      have := (C04_release (Pair.ofEnv env)).2 hx
      rw [h7] at this; simp at this
    have hcmd : env.commandInfo.command ≠ [] := by rw [h6]; simp
    refine ⟨env, l1, l2, hl, hs, rfl, hcmd, hne,
      ⟨Or.inl (by rw [h9]; decide), fun h => absurd h (by rw [h9, h10]; decide), h8.symm.trans (sessionPath_eq env), rfl, fun d hd => ?_,
        crowd_of hn ofProcess_sampleScene, Option.isSome_iff_exists.1 hw⟩, h12, by rw [h10]; decide, by rw [h10]; decide⟩
    · rw [h11] at hd
      exact decide_eq_true (Path.components_same hd)

end SudoPair
