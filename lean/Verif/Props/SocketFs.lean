import Verif.Lemmas.Fs
import Verif.Lemmas.Scenario
import Verif.Props.Path
/-
The approval socket on disk: who can reach it, when it exists, what is removed, what is vetted.
-/
namespace SudoPair
open Spec

/-! ### Every instant of `Socket::open` -/

/-- The socket file is either closed to everyone, or has its final owner, group and mode. -/
def Sealed (euid grp uid gid mode : Nat) (s : Fs) : Prop :=
  ∀ n, s.node = some n → n.mode = 0 ∨
    n = ⟨if uid = noId then euid else uid, if gid = noId then grp else gid, mode⟩

theorem vet_neutral {rt path o h} (hv : Vet rt path o h) : ∀ e ∈ h, ¬ FsCall e.call := by
  cases hv <;> simp [FsCall]

theorem unlink_sealed {path euid grp uid gid mode o h s} (hu : Unlink path o h)
    (hs : Sealed euid grp uid gid mode s) : Always path euid grp (Sealed euid grp uid gid mode) s h := by
  cases hu with
  | removed b => cases b <;> simp [Always, Fs.step, Sealed] <;> exact hs
  | _ => simp [Always, Fs.step, hs]

theorem unlink_none {path euid grp o h s} (hu : Unlink path o h) (hs : s.node = none) :
    Fs.run path euid grp s h = s := by
  rcases s with ⟨u, n⟩
  subst hs
  cases hu with
  | removed b => cases b <;> simp [Fs.run, Fs.step]
  | _ => simp [Fs.run, Fs.step]

theorem acc_sealed {rt path euid grp uid gid mode fd o h u} (ha : Acc rt path uid gid mode fd o h) :
    Always path euid grp (Sealed euid grp uid gid mode) ⟨u, some ⟨euid, grp, 0⟩⟩ h := by
  cases ha <;> simp [Always, Fs.step, Sealed]

theorem bindAcc_sealed {rt path euid grp uid gid mode o h} (ha : BindAcc rt path uid gid mode o h) :
    Always path euid grp (Sealed euid grp uid gid mode) ⟨0o777, none⟩ h := by
  cases ha with
  | killed => simp [Always, Sealed]
  | failed => simp [Always, Fs.step, Sealed]
  | failLeft => simp [Always, Fs.step, Sealed]
  | bound ha =>
    refine ⟨by simp [Sealed], ?_⟩
    have := acc_sealed (euid := euid) (grp := grp) (u := 0o777) ha
    simpa [Fs.step] using this

theorem always_end {path euid grp Q s h} (ha : Always path euid grp Q s h) : Q (Fs.run path euid grp s h) := by
  have := always_prefix (a := h) (b := []) (by simpa using ha)
  exact this

theorem sockOpen_sealed {rt path uid gid mode grp o h u} (hs : SockOpen rt path uid gid mode o h) :
    Always path rt.euid grp (Sealed rt.euid grp uid gid mode) ⟨u, none⟩ h := by
  have h0 : ∀ u, Sealed rt.euid grp uid gid mode ⟨u, none⟩ := by simp [Sealed]
  have hv : ∀ {o h}, Vet rt path o h → Always path rt.euid grp (Sealed rt.euid grp uid gid mode) ⟨u, none⟩ h :=
    fun hv => always_neutral (vet_neutral hv) (h0 u)
  have hv' : ∀ {o h}, Vet rt path o h → Fs.run path rt.euid grp ⟨u, none⟩ h = ⟨u, none⟩ :=
    fun hv => fs_run_neutral (vet_neutral hv)
  have hvu : ∀ {o h o' h'}, Vet rt path o h → Unlink path o' h' →
      Always path rt.euid grp (Sealed rt.euid grp uid gid mode) ⟨u, none⟩ (h ++ h') :=
    fun v w => always_append (hv v) (by rw [hv' v]; exact unlink_sealed w (h0 u))
  have big : ∀ {o h o' h' old k}, Vet rt path o h → Unlink path o' h' →
      Always path rt.euid grp (Sealed rt.euid grp uid gid mode) ⟨0o777, none⟩ k →
      Always path rt.euid grp (Sealed rt.euid grp uid gid mode) ⟨u, none⟩ (h ++ (h' ++ ⟨.umask 0o777, old⟩ :: k)) :=
    fun v w hk => always_append (hv v) (by
      rw [hv' v]
      exact always_append (unlink_sealed w (h0 u)) (by rw [unlink_none w rfl]; exact ⟨h0 u, hk⟩))
  cases hs with
  | vetErr v => exact hv v
  | vetKilled v => exact hv v
  | unlErr v w => exact hvu v w
  | unlKilled v w => exact hvu v w
  | umaskKilled v w => exact hvu v w
  | accKilled v w b => exact big v w (bindAcc_sealed b)
  | accPanic v w b => exact big v w (bindAcc_sealed b)
  | finKilled v w b x =>
    exact big v w (always_append (bindAcc_sealed b) (unlink_sealed x (always_end (bindAcc_sealed b))))
  | done v w b x =>
    have hx := unlink_sealed x (always_end (bindAcc_sealed (euid := rt.euid) (grp := grp) b))
    refine big v w (always_append (bindAcc_sealed b) (always_append hx ⟨always_end hx, ?_⟩))
    have := always_end hx
    exact this

/-- Every instant of the `open` callback. -/
theorem coreOpen_sealed {rt a st o h grp u} (hr : Runs (Core.open rt a st) o h) {env0}
    (hnew : IoEnv.new rt a = some (.ok env0)) {p} (hp : p = Pair.ofEnv (effEnv st env0)) :
    Always p.socketPath rt.euid grp (fun s => s.node ≠ none → ∃ mode, p.toUserAndGroup = false ∧
      p.socketMode = some mode ∧ Sealed rt.euid grp p.socketUid p.socketGid mode s) ⟨u, none⟩ h := by
  rcases coreOpen_phases hr with hq | ⟨env1, p1, h1, h2, h3, mode, o2, hn, rfl, rfl, k1, k2, k3, k4, k5, k6, -⟩
  · exact always_neutral (quiet_not_fs hq) (by simp)
  · rw [hnew] at hn
    simp only [Option.some.injEq, Except.ok.injEq] at hn
    subst hn; subst hp
    have mono : ∀ {h s}, Always (Pair.ofEnv (effEnv st env0)).socketPath rt.euid grp (Sealed rt.euid grp
        (Pair.ofEnv (effEnv st env0)).socketUid (Pair.ofEnv (effEnv st env0)).socketGid mode) s h →
        Always (Pair.ofEnv (effEnv st env0)).socketPath rt.euid grp (fun s => s.node ≠ none → ∃ mode,
          (Pair.ofEnv (effEnv st env0)).toUserAndGroup = false ∧
          (Pair.ofEnv (effEnv st env0)).socketMode = some mode ∧ Sealed rt.euid grp
        (Pair.ofEnv (effEnv st env0)).socketUid (Pair.ofEnv (effEnv st env0)).socketGid mode s) s h := by
      intro h
      induction h with
      | nil => exact fun hs _ => ⟨mode, k2, k4, hs⟩
      | cons e h ih => exact fun hs => ⟨fun _ => ⟨mode, k2, k4, hs.1⟩, ih hs.2⟩
    have hs := sockOpen_sealed (grp := grp) (u := u) k5
    refine always_append (always_neutral (quiet_not_fs k1) (by simp)) ?_
    rw [fs_run_neutral (quiet_not_fs k1)]
    refine mono (always_append hs (always_neutral (fun e he => not_fs_of_tail (k6 e he)) (always_end hs)))

/-! ### C11, C12 -/

theorem sealed_reach {rt : Rt} {p : Pair} {grp mode : Nat} {s : Fs} {n : Node} {c : Cred}
    (hboth : p.toUserAndGroup = false) (hmode : p.socketMode = some mode)
    (hs : Sealed rt.euid grp p.socketUid p.socketGid mode s) (hn : s.node = some n)
    (hu : p.env.commandInfo.runasEuid ≠ noId ∨ rt.euid = 0)
    (hg : p.env.userInfo.uid = p.env.commandInfo.runasEuid → p.env.commandInfo.runasEgid ≠ noId)
    (hroot : c.uid ≠ 0) (hc : n.connectable c) :
    (p.env.userInfo.uid ≠ p.env.commandInfo.runasEuid ∧ p.env.settings.runasGroup = none ∧
      c.uid = p.env.commandInfo.runasEuid) ∨
    (p.env.userInfo.uid = p.env.commandInfo.runasEuid ∧ p.env.settings.runasGroup ≠ none ∧
      p.env.commandInfo.runasEgid ∈ c.groups) := by
  rcases hs n hn with h0 | h0
  · simp [Node.connectable, h0] at hc
  · by_cases hto : p.env.userInfo.uid = p.env.commandInfo.runasEuid
    · right
      have htu : p.toUser = false := by simp [Pair.toUser, hto]
      have hgrp : p.env.settings.runasGroup ≠ none := by
        intro h1
        simp [Pair.socketMode, htu, Pair.toExplicitGroup, h1] at hmode
      have hx : p.toExplicitGroup = true := by
        simp only [Pair.toExplicitGroup]
        exact Option.isSome_iff_ne_none.2 hgrp
      refine ⟨hto, hgrp, ?_⟩
      have hm : mode = 0o020 := by
        simp [Pair.socketMode, htu, hx, Socket.S_IWGRP] at hmode
        exact hmode.symm
      have hgid : p.socketGid = p.env.commandInfo.runasEgid := by simp [Pair.socketGid, hx]
      subst h0; subst hm
      rw [hgid, if_neg (hg hto)] at hc
      refine Decidable.byContradiction fun hnot => ?_
      simp [Node.connectable, hnot] at hc
    · left
      have htu : p.toUser = true := by simp [Pair.toUser, hto]
      have hx : p.toExplicitGroup = false := by
        simpa [Pair.toUserAndGroup, htu] using hboth
      have hgrp : p.env.settings.runasGroup = none := by
        simpa [Pair.toExplicitGroup] using hx
      refine ⟨hto, hgrp, ?_⟩
      have hm : mode = 0o200 := by
        simp [Pair.socketMode, htu, Socket.S_IWUSR] at hmode
        exact hmode.symm
      have huid : p.socketUid = p.env.commandInfo.runasEuid := by simp [Pair.socketUid, htu]
      subst h0; subst hm
      rw [huid] at hc
      refine Decidable.byContradiction fun hnot => ?_
      rcases hu with hu | hu
      · simp [Node.connectable, hnot, hu] at hc
      · by_cases hu' : p.env.commandInfo.runasEuid = noId
        · simp [Node.connectable, hu', hu, hroot] at hc
        · simp [Node.connectable, hnot, hu'] at hc

/-- C11: at every instant `pre` of the `open` callback at which the approval socket exists, a process
other than the superuser can connect to it only if it acts as the target user (sudo to a user), or holds
the target group (sudo -g).  The invoking user's umask `u` and the group `grp` given to new files are
arbitrary.

Partial: the ids 4294967295 = (uid_t)-1 are excluded where `chown(2)` takes them for "leave
unchanged"; `C11_counterexample` shows that they have to be for groups. -/
theorem C11_reachable_partial {rt : Rt} {a : OpenArgs} {st : State} {o} {pre post : Hist}
    (hr : Runs (Core.open rt a st) o (pre ++ post)) {env0 : IoEnv}
    (hnew : IoEnv.new rt a = some (.ok env0)) {env : IoEnv} (henv : env = st.env.getD env0)
    (hu : env.commandInfo.runasEuid ≠ noId ∨ rt.euid = 0)
    (hg : env.userInfo.uid = env.commandInfo.runasEuid → env.commandInfo.runasEgid ≠ noId)
    (u grp : Nat) {n : Node}
    (hn : (Fs.run (sessionPath env) rt.euid grp ⟨u, none⟩ pre).node = some n)
    (c : Cred) (hroot : c.uid ≠ 0) (hc : n.connectable c) :
    (env.userInfo.uid ≠ env.commandInfo.runasEuid ∧ env.settings.runasGroup = none ∧
      c.uid = env.commandInfo.runasEuid) ∨
    (env.userInfo.uid = env.commandInfo.runasEuid ∧ env.settings.runasGroup ≠ none ∧
      env.commandInfo.runasEgid ∈ c.groups) := by
  subst henv
  rw [← sessionPath_eq] at hn
  have hs := always_prefix (coreOpen_sealed (grp := grp) (u := u) hr hnew rfl)
  obtain ⟨mode, h1, h2, h3⟩ := hs (by rw [hn]; simp)
  exact sealed_reach (p := Pair.ofEnv (st.env.getD env0)) h1 h2 h3 hn hu hg hroot hc

/-- C12: a process with the invoking user's own uid and groups, not the superuser, cannot connect to the
approval socket at any instant, unless the session is `sudo -g` to a group the user already holds.

Partial: as for `C11_reachable_partial`. -/
theorem C12_no_self_approval_partial {rt : Rt} {a : OpenArgs} {st : State} {o} {pre post : Hist}
    (hr : Runs (Core.open rt a st) o (pre ++ post)) {env0 : IoEnv}
    (hnew : IoEnv.new rt a = some (.ok env0)) {env : IoEnv} (henv : env = st.env.getD env0)
    (hu : env.commandInfo.runasEuid ≠ noId ∨ rt.euid = 0)
    (hg : env.userInfo.uid = env.commandInfo.runasEuid → env.commandInfo.runasEgid ≠ noId)
    (hroot : env.userInfo.uid ≠ 0) (u grp : Nat) {n : Node}
    (hn : (Fs.run (sessionPath env) rt.euid grp ⟨u, none⟩ pre).node = some n)
    (hc : n.connectable ⟨env.userInfo.uid, env.userInfo.gid :: env.userInfo.groups⟩) :
    env.settings.runasGroup ≠ none ∧
      (env.commandInfo.runasEgid = env.userInfo.gid ∨ env.commandInfo.runasEgid ∈ env.userInfo.groups) := by
  rcases C11_reachable_partial hr hnew henv hu hg u grp hn _ hroot hc with ⟨h1, _, h3⟩ | ⟨_, h2, h3⟩
  · exact absurd h3 h1
  · exact ⟨h2, by simpa using h3⟩

/-- As `sampleArgs`, but to user 1001. -/
def otherUserArgs : OpenArgs := { sampleArgs with
  commandInfo := some [b! "command=/bin/ls", b! "runas_uid=1001", b! "runas_gid=0",
    b! "runas_groups=0", b! "iolog_stdout=true"] }

/-- As `sampleArgs`, but `sudo -g` to the group with the given (decimal) id. -/
def viaGroupArgs (gid : Bytes) : OpenArgs := { sampleArgs with
  settings := some [b! "plugin_dir=/p", b! "plugin_path=/p/sudo_pair.so", b! "progname=sudo", b! "runas_group=g"]
  commandInfo := some [b! "command=/bin/ls", b! "runas_uid=1000", b! "runas_gid=" ++ gid,
    b! "runas_groups=0", b! "iolog_stdout=true"] }

instance (n : Node) (c : Cred) : Decidable (n.connectable c) := by
  unfold Node.connectable; infer_instance

/-- The socket file of a session after the first `k` interactions, if it exists. -/
def nodeAfter (a : OpenArgs) (grp k : Nat) (s : Sched) : Option Node :=
  (Fs.run (b! "/var/run/sudo_pair/1000.42.sock") 0 grp ⟨0o22, none⟩
    ((Core.open sampleRt a Core.init s).2.1.take k)).node

/-- The hypotheses of C11 and C12 are met: the socket exists, and the target can connect to it, while the
invoking user cannot. -/
example : ∃ env, IoEnv.new sampleRt otherUserArgs = some (.ok env) ∧
    sessionPath env = b! "/var/run/sudo_pair/1000.42.sock" ∧
    env.commandInfo.runasEuid = 1001 ∧ env.userInfo.uid = 1000 ∧
    nodeAfter otherUserArgs 0 7 (List.replicate 60 (coop 121)) = some ⟨0, 0, 0⟩ ∧
    nodeAfter otherUserArgs 0 9 (List.replicate 60 (coop 121)) = some ⟨1001, 0, 0o200⟩ ∧
    (⟨1001, 0, 0o200⟩ : Node).connectable ⟨1001, []⟩ ∧ ¬ (⟨1001, 0, 0o200⟩ : Node).connectable ⟨1000, [27]⟩ := by
  have h5 : ((IoEnv.new sampleRt otherUserArgs).bind Except.toOption).map
      (fun env => ((Pair.ofEnv env).socketPath, env.commandInfo.runasEuid, env.userInfo.uid)) =
      some (b! "/var/run/sudo_pair/1000.42.sock", 1001, 1000) := by decide +kernel
  rcases hn : IoEnv.new sampleRt otherUserArgs with _ | (e | env) <;> rw [hn] at h5
  · simp at h5
  · simp [Except.toOption] at h5
  · simp only [Except.toOption, Option.bind_some, Option.map_some, Option.some.injEq, Prod.mk.injEq] at h5
    exact ⟨env, rfl, (sessionPath_eq env).symm.trans h5.1, h5.2.1, h5.2.2, by decide +kernel⟩

/-- The group case of C11 is met: `sudo -g` to group 27, which the invoking user holds. -/
example : nodeAfter (viaGroupArgs (b! "27")) 0 9 (List.replicate 60 (coop 121)) = some ⟨0, 27, 0o020⟩ ∧
    (⟨0, 27, 0o020⟩ : Node).connectable ⟨1000, [1000, 27]⟩ := by decide +kernel

/-- C11 and C12 fail for `sudo -g` to the group 4294967295: `chown(2)` takes that id for "leave
unchanged", and members of the group new files are given (here 27) can connect, among them the invoking
user. -/
theorem C11_counterexample : ∃ env pre post o n, IoEnv.new sampleRt (viaGroupArgs (b! "4294967295")) = some (.ok env) ∧
    Runs (Core.open sampleRt (viaGroupArgs (b! "4294967295")) Core.init) o (pre ++ post) ∧
    env.userInfo.uid = env.commandInfo.runasEuid ∧ env.commandInfo.runasEgid = 4294967295 ∧
    env.userInfo.uid = 1000 ∧ env.userInfo.groups = [1000, 27] ∧
    (Fs.run (sessionPath env) sampleRt.euid 27 ⟨0o22, none⟩ pre).node = some n ∧
    n.connectable ⟨1000, [1000, 27]⟩ := by
  have h5 : ((IoEnv.new sampleRt (viaGroupArgs (b! "4294967295"))).bind Except.toOption).map
      (fun env => ((Pair.ofEnv env).socketPath, env.userInfo.uid, env.commandInfo.runasEuid,
        env.commandInfo.runasEgid, env.userInfo.groups)) =
      some (b! "/var/run/sudo_pair/1000.42.sock", 1000, 1000, 4294967295, [1000, 27]) := by decide +kernel
  rcases hn : IoEnv.new sampleRt (viaGroupArgs (b! "4294967295")) with _ | (e | env) <;> rw [hn] at h5
  · simp at h5
  · simp [Except.toOption] at h5
  · simp only [Except.toOption, Option.bind_some, Option.map_some, Option.some.injEq, Prod.mk.injEq] at h5
    obtain ⟨h6, h7, h8, h9, h10⟩ := h5
    refine ⟨env, _, _, _, ⟨0, 27, 0o020⟩, rfl, ⟨List.replicate 60 (coop 121), rfl,
      (List.take_append_drop 9 _).symm⟩, by rw [h7, h8], h9, h7, h10, ?_, by decide⟩
    rw [← sessionPath_eq, h6]
    decide +kernel

/-! ### C13 -/

/-- Interactions other than `umask`. -/
def NotUmask (e : Ev) : Prop := ∀ m, e.call ≠ .umask m

theorem fs_step_umask {path euid grp s e} (h : NotUmask e) : (Fs.step path euid grp s e).umask = s.umask := by
  rcases e with ⟨c, r⟩
  cases c with
  | umask m => exact absurd rfl (h m)
  | bind p => cases r <;> simp only [Fs.step] <;> split <;> rfl
  | chown p u g => simp only [Fs.step]; split <;> rfl
  | chmod p m => simp only [Fs.step]; split <;> rfl
  | removeFile p => simp only [Fs.step]; split <;> rfl
  | _ => rfl

theorem fs_run_umask {path euid grp} : ∀ {h s}, (∀ e ∈ h, NotUmask e) →
    (Fs.run path euid grp s h).umask = s.umask
  | [], _, _ => rfl
  | _ :: _, _, h => by
    rw [fs_run_cons, fs_run_umask (fun e he => h e (by simp [he])), fs_step_umask (h _ (by simp))]

theorem umaskTruth_cons {u e h} (he : NotUmask e) : UmaskTruth u (e :: h) ↔ UmaskTruth u h := by
  rcases e with ⟨c, r⟩
  cases c with
  | umask m => exact absurd rfl (he m)
  | _ => rfl

theorem umaskTruth_append {path euid grp} : ∀ {a b s}, UmaskTruth s.umask (a ++ b) →
    UmaskTruth s.umask a ∧ UmaskTruth (Fs.run path euid grp s a).umask b
  | [], _, _, h => ⟨trivial, h⟩
  | e :: a, b, s, h => by
    by_cases he : NotUmask e
    · rw [List.cons_append, umaskTruth_cons he] at h
      rw [umaskTruth_cons he, fs_run_cons]
      rw [← fs_step_umask (path := path) (euid := euid) (grp := grp) (s := s) he] at h ⊢
      exact umaskTruth_append h
    · rcases e with ⟨c, r⟩
      cases c with
      | umask m =>
        obtain ⟨h1, h2⟩ := h
        have := umaskTruth_append (path := path) (euid := euid) (grp := grp) (a := a) (b := b)
          (s := ⟨m &&& 0o777, s.node⟩) h2
        exact ⟨⟨h1, this.1⟩, this.2⟩
      | _ => exact absurd (by intro m; simp) he

theorem notUmask_of_tail {e : Ev} (h : TailCall e.call) : NotUmask e := by
  intro m hm; rw [hm] at h; exact h

theorem notUmask_of_quiet {h : Hist} (hq : Quiet h) : ∀ e ∈ h, NotUmask e := by
  intro e he m hm
  have := hq e he
  rw [hm] at this; exact this

theorem vet_notUmask {rt path o h} (hv : Vet rt path o h) : ∀ e ∈ h, NotUmask e := by
  cases hv <;> simp [NotUmask]

theorem unlink_notUmask {path o h} (hv : Unlink path o h) : ∀ e ∈ h, NotUmask e := by
  cases hv <;> simp [NotUmask]

theorem bindAcc_notUmask {rt path uid gid mode o h} (hv : BindAcc rt path uid gid mode o h) :
    ∀ e ∈ h, NotUmask e := by
  cases hv with
  | bound ha => cases ha <;> simp [NotUmask]
  | _ => simp [NotUmask]

theorem sockOpen_umask {rt path uid gid mode c h} (hs : SockOpen rt path uid gid mode (.ok c) h)
    {path' euid grp s} (hu : s.umask &&& 0o777 = s.umask) (ht : UmaskTruth s.umask h) :
    (Fs.run path' euid grp s h).umask = s.umask := by
  cases hs with
  | vetErr v => exact fs_run_umask (vet_notUmask v)
  | unlErr v w => exact fs_run_umask (List.forall_mem_append.2 ⟨vet_notUmask v, unlink_notUmask w⟩)
  | done v w b x =>
    rename_i h1 h2 h3 h4 old old' bb
    have e1 : (Fs.run path' euid grp s h1).umask = s.umask := fs_run_umask (vet_notUmask v)
    have e2 : (Fs.run path' euid grp (Fs.run path' euid grp s h1) h2).umask = s.umask := by
      rw [fs_run_umask (unlink_notUmask w), e1]
    have t1 := (umaskTruth_append (path := path') (euid := euid) (grp := grp) ht).2
    have t2 := (umaskTruth_append (path := path') (euid := euid) (grp := grp) t1).2
    rw [e2] at t2
    have hold : old = s.umask := t2.1
    rw [fs_run_append, fs_run_append, fs_run_cons, fs_run_append, fs_run_append, fs_run_cons, fs_run_nil]
    simp only [Fs.step, hold, hu]

/-- C13: whenever `Socket::open` returns, with success or error, the process umask is what it was before
the call, if the replies of `umask(2)` are truthful.  (`u` has permission bits only: so has every
process' umask.) -/
theorem C13_umask_restored {rt : Rt} {path : Bytes} {uid gid mode : Nat} {c : Option Conn} {h : Hist}
    (hr : Runs (Socket.open' rt path uid gid mode) (.ok c) h) {path' : Bytes} {euid grp : Nat} {s : Fs}
    (hu : s.umask &&& 0o777 = s.umask) (ht : UmaskTruth s.umask h) :
    (Fs.run path' euid grp s h).umask = s.umask :=
  sockOpen_umask (open'_runs hr) hu ht

theorem sockOpen_no_panic {rt path uid gid mode h} (hs : SockOpen rt path uid gid mode .panic h)
    (hsane : SelectSane rt.fdSetSize h) : False := by
  generalize ho : (Out.panic : Out (Option Conn)) = o at hs
  cases hs with
  | accPanic v w b =>
    generalize ho2 : (Out.panic : Out (Option Conn)) = o2 at b
    cases b with
    | bound ha =>
      rename_i h1 h2 old fd h3
      cases ha with
      | fdset hfd =>
        have := hsane.1 path fd (by simp)
        omega
      | selPanic r h1 h2 =>
        rcases hsane.2 fd r (by simp) with h | h
        · exact h1 h
        · exact h2 h
      | _ => simp at ho2
    | _ => simp at ho2
  | _ => simp at ho

theorem selectSane_append {n : Nat} {a b : Hist} (h : SelectSane n (a ++ b)) : SelectSane n a ∧ SelectSane n b :=
  ⟨⟨fun p fd he => h.1 p fd (by simp [he]), fun fd r he => h.2 fd r (by simp [he])⟩,
   ⟨fun p fd he => h.1 p fd (by simp [he]), fun fd r he => h.2 fd r (by simp [he])⟩⟩

/-- A completed `open` callback: either it does not come to `Socket::open`, or `Socket::open` returned. -/
theorem coreOpen_returned {rt a st r h} (hr : Runs (Core.open rt a st) (.ok r) h)
    (hsane : SelectSane rt.fdSetSize h) :
    Quiet h ∨ ∃ path uid gid mode c h1 h2 h3, h = h1 ++ (h2 ++ h3) ∧ Quiet h1 ∧
      SockOpen rt path uid gid mode (.ok c) h2 ∧ ∀ e ∈ h3, TailCall e.call := by
  rcases coreOpen_phases hr with hq | ⟨env1, p1, h1, h2, h3, mode, o2, hn, rfl, rfl, k1, k2, k3, k4, k5, k6, k7, k8, k9, -⟩
  · exact Or.inl hq
  · right
    cases o2 with
    | ok c => exact ⟨_, _, _, mode, c, h1, h2, h3, rfl, k1, k5, k6⟩
    | panic => exact (sockOpen_no_panic k5 (selectSane_append (selectSane_append hsane).2).1).elim
    | killed => simp at k9

theorem step_umask {rt c st r st' h} (hr : Runs (Core.step rt c st) (.ok (r, st')) h)
    (hsane : SelectSane rt.fdSetSize h) {path' euid grp s} (hu : s.umask &&& 0o777 = s.umask)
    (ht : UmaskTruth s.umask h) : (Fs.run path' euid grp s h).umask = s.umask := by
  by_cases hc : ∃ a, c = .open a
  · obtain ⟨a, rfl⟩ := hc
    rcases coreOpen_returned hr hsane with hq | ⟨path, uid, gid, mode, c, h1, h2, h3, rfl, k1, k2, k3⟩
    · exact fs_run_umask (notUmask_of_quiet hq)
    · rw [fs_run_append, fs_run_append, fs_run_umask (fun e he => notUmask_of_tail (k3 e he))]
      have e1 : (Fs.run path' euid grp s h1).umask = s.umask := fs_run_umask (notUmask_of_quiet k1)
      have t1 := (umaskTruth_append (path := path') (euid := euid) (grp := grp) ht).2
      have t2 := (umaskTruth_append (path := path') (euid := euid) (grp := grp) t1).1
      rw [sockOpen_umask k2 (by rw [e1]; exact hu) t2, e1]
  · have := (step_tail rt c st (fun a h => hc ⟨a, h⟩)).of_runs hr
    exact fs_run_umask (fun e he => notUmask_of_tail (this e he))

/-- C13 for whole histories of callbacks: whenever control is back in sudo, the umask is the one before
the first callback, if `select(2)` behaves.  (If it does not, `Socket::open` panics instead of returning:
`C13_panic_keeps_umask`.) -/
theorem C13_callbacks {rt : Rt} {tr : List Item} {st st' : State} (hx : Exec rt st tr st')
    (hsane : SelectSane rt.fdSetSize (tr.flatMap Item.hist)) {path' : Bytes} {euid grp : Nat} {s : Fs}
    (hu : s.umask &&& 0o777 = s.umask) (ht : UmaskTruth s.umask (tr.flatMap Item.hist)) :
    (Fs.run path' euid grp s (tr.flatMap Item.hist)).umask = s.umask := by
  induction hx with
  | nil => rfl
  | snoc h1 h2 ih =>
    rename_i tr st1 c r st2 h
    simp only [List.flatMap_append, List.flatMap_cons, List.flatMap_nil, List.append_nil] at hsane ht ⊢
    have e1 := ih (selectSane_append hsane).1 (umaskTruth_append (path := path') (euid := euid) (grp := grp) ht).1
    have t2 := (umaskTruth_append (path := path') (euid := euid) (grp := grp) ht).2
    rw [fs_run_append, step_umask h2 (selectSane_append hsane).2 (by rw [e1]; exact hu) t2, e1]

/-! ### C14 -/

/-- Calls on files name `path`. -/
def FsPath (path : Bytes) : Sys → Prop
  | .bind p => p = path
  | .chown p _ _ => p = path
  | .chmod p _ => p = path
  | .removeFile p => p = path
  | _ => True

theorem fs_step_other {path path' euid grp s} {e : Ev} (hne : path ≠ path') (h : FsPath path e.call) :
    (Fs.step path' euid grp s e).node = s.node := by
  rcases e with ⟨c, r⟩
  cases c with
  | bind p => cases h; cases r <;> simp [Fs.step, hne]
  | chown p u g => cases h; simp [Fs.step, hne]
  | chmod p m => cases h; simp [Fs.step, hne]
  | removeFile p => cases h; simp [Fs.step, hne]
  | _ => rfl

theorem fs_run_other {path path' euid grp} (hne : path ≠ path') : ∀ {h : Hist} {s},
    (∀ e ∈ h, FsPath path e.call) → (Fs.run path' euid grp s h).node = s.node
  | [], _, _ => rfl
  | _ :: _, _, h => by
    rw [fs_run_cons, fs_run_other hne (fun e he => h e (by simp [he])), fs_step_other hne (h _ (by simp))]

theorem vet_fsPath {rt path o h p} (hv : Vet rt path o h) : ∀ e ∈ h, FsPath p e.call := by
  cases hv <;> simp [FsPath]

theorem unlink_fsPath {path o h} (hv : Unlink path o h) : ∀ e ∈ h, FsPath path e.call := by
  cases hv <;> simp [FsPath]

theorem bindAcc_fsPath {rt path uid gid mode o h} (hv : BindAcc rt path uid gid mode o h) :
    ∀ e ∈ h, FsPath path e.call := by
  cases hv with
  | bound ha => cases ha <;> simp [FsPath]
  | _ => simp [FsPath]

theorem sockOpen_fsPath {rt path uid gid mode o h} (hs : SockOpen rt path uid gid mode o h) :
    ∀ e ∈ h, FsPath path e.call := by
  cases hs with
  | vetErr v => exact vet_fsPath v
  | vetKilled v => exact vet_fsPath v
  | unlErr v w => exact List.forall_mem_append.2 ⟨vet_fsPath v, unlink_fsPath w⟩
  | unlKilled v w => exact List.forall_mem_append.2 ⟨vet_fsPath v, unlink_fsPath w⟩
  | umaskKilled v w => exact List.forall_mem_append.2 ⟨vet_fsPath v, unlink_fsPath w⟩
  | accKilled v w b =>
    exact List.forall_mem_append.2 ⟨vet_fsPath v, List.forall_mem_append.2 ⟨unlink_fsPath w,
      List.forall_mem_cons.2 ⟨trivial, bindAcc_fsPath b⟩⟩⟩
  | accPanic v w b =>
    exact List.forall_mem_append.2 ⟨vet_fsPath v, List.forall_mem_append.2 ⟨unlink_fsPath w,
      List.forall_mem_cons.2 ⟨trivial, bindAcc_fsPath b⟩⟩⟩
  | finKilled v w b x =>
    exact List.forall_mem_append.2 ⟨vet_fsPath v, List.forall_mem_append.2 ⟨unlink_fsPath w,
      List.forall_mem_cons.2 ⟨trivial, List.forall_mem_append.2 ⟨bindAcc_fsPath b, unlink_fsPath x⟩⟩⟩⟩
  | done v w b x =>
    exact List.forall_mem_append.2 ⟨vet_fsPath v, List.forall_mem_append.2 ⟨unlink_fsPath w,
      List.forall_mem_cons.2 ⟨trivial, List.forall_mem_append.2 ⟨bindAcc_fsPath b,
        List.forall_mem_append.2 ⟨unlink_fsPath x, List.forall_mem_cons.2 ⟨trivial, by simp⟩⟩⟩⟩⟩⟩

theorem metadataTruth_append {path euid grp} : ∀ {a b s}, MetadataTruth path euid grp s (a ++ b) →
    MetadataTruth path euid grp s a ∧ MetadataTruth path euid grp (Fs.run path euid grp s a) b
  | [], _, _, h => ⟨trivial, h⟩
  | _ :: _, _, _, h => ⟨⟨h.1, (metadataTruth_append h.2).1⟩, (metadataTruth_append h.2).2⟩

theorem unlink_gone {path euid grp b h s} (hu : Unlink path (.ok b) h)
    (ht : MetadataTruth path euid grp s h) (hrm : (⟨.removeFile path, false⟩ : Ev) ∉ h) :
    (Fs.run path euid grp s h).node = none := by
  generalize ho : Out.ok b = o at hu
  cases hu with
  | absent =>
    have := ht.1 rfl
    refine Decidable.byContradiction fun hn => ?_
    have h2 := this hn
    simp at h2
  | foreign =>
    have := ht.1 rfl
    refine Decidable.byContradiction fun hn => ?_
    have h2 := this hn
    simp at h2
  | removed b' =>
    cases b' with
    | false => simp at hrm
    | true => simp [Fs.run, Fs.step]
  | _ => simp at ho

theorem sockOpen_gone {rt path uid gid mode c h} (hs : SockOpen rt path uid gid mode (.ok c) h)
    {path' euid grp s} (hn : s.node = none) (ht : MetadataTruth path' euid grp s h)
    (hrm : (⟨.removeFile path', false⟩ : Ev) ∉ h) : (Fs.run path' euid grp s h).node = none := by
  by_cases hp : path = path'
  · subst hp
    have hv : ∀ {o h s}, Vet rt path o h → Fs.run path euid grp s h = s :=
      fun v => fs_run_neutral (vet_neutral v)
    cases hs with
    | vetErr v => rw [hv v]; exact hn
    | unlErr v w => rw [fs_run_append, hv v, unlink_none w hn]; exact hn
    | done v w b x =>
      rename_i h1 h2 h3 h4 old old' bb
      rw [fs_run_append, fs_run_append, fs_run_cons, fs_run_append, fs_run_append, fs_run_cons, fs_run_nil]
      have t1 := (metadataTruth_append ht).2
      have t2 := (metadataTruth_append t1).2
      have t3 := (metadataTruth_append t2.2).2
      have t4 := (metadataTruth_append t3).1
      have := unlink_gone x t4 (by intro hm; exact hrm (by simp [hm]))
      simpa [Fs.step] using this
  · rw [fs_run_other hp (sockOpen_fsPath hs)]; exact hn

/-- C14: when the approval handshake returns, with a connection or an error, the socket file is not
there, provided the operating system tells the truth about it and the `unlink` calls themselves did not
fail.  This holds for any path `path'`: nothing else is left behind either. -/
theorem C14_unlinked {rt : Rt} {path : Bytes} {uid gid mode : Nat} {c : Option Conn} {h : Hist}
    (hr : Runs (Socket.open' rt path uid gid mode) (.ok c) h) {path' : Bytes} {euid grp : Nat} {s : Fs}
    (hn : s.node = none) (ht : MetadataTruth path' euid grp s h)
    (hrm : (⟨.removeFile path', false⟩ : Ev) ∉ h) : (Fs.run path' euid grp s h).node = none :=
  sockOpen_gone (open'_runs hr) hn ht hrm

theorem step_gone {rt c st r st' h} (hr : Runs (Core.step rt c st) (.ok (r, st')) h)
    (hsane : SelectSane rt.fdSetSize h) {path' euid grp s} (hn : s.node = none)
    (ht : MetadataTruth path' euid grp s h) (hrm : (⟨.removeFile path', false⟩ : Ev) ∉ h) :
    (Fs.run path' euid grp s h).node = none := by
  by_cases hc : ∃ a, c = .open a
  · obtain ⟨a, rfl⟩ := hc
    rcases coreOpen_returned hr hsane with hq | ⟨path, uid, gid, mode, c, h1, h2, h3, rfl, k1, k2, k3⟩
    · rw [fs_run_neutral (quiet_not_fs hq)]; exact hn
    · rw [fs_run_append, fs_run_append, fs_run_neutral (fun e he => not_fs_of_tail (k3 e he)),
        fs_run_neutral (quiet_not_fs k1)]
      have t1 := (metadataTruth_append ht).2
      rw [fs_run_neutral (quiet_not_fs k1)] at t1
      exact sockOpen_gone k2 hn (metadataTruth_append t1).1 (by intro hm; exact hrm (by simp [hm]))
  · have := (step_tail rt c st (fun a h => hc ⟨a, h⟩)).of_runs hr
    rw [fs_run_neutral (fun e he => not_fs_of_tail (this e he))]; exact hn

/-- C14 for whole histories of callbacks: whenever control is back in sudo, no file created by the plugin
exists at any path.  `select(2)` is assumed to behave: `C14_panic_leaves_socket`. -/
theorem C14_callbacks {rt : Rt} {tr : List Item} {st st' : State} (hx : Exec rt st tr st')
    (hsane : SelectSane rt.fdSetSize (tr.flatMap Item.hist)) {path' : Bytes} {euid grp : Nat} {s : Fs}
    (hn : s.node = none) (ht : MetadataTruth path' euid grp s (tr.flatMap Item.hist))
    (hrm : (⟨.removeFile path', false⟩ : Ev) ∉ tr.flatMap Item.hist) :
    (Fs.run path' euid grp s (tr.flatMap Item.hist)).node = none := by
  induction hx with
  | nil => exact hn
  | snoc h1 h2 ih =>
    rename_i tr st1 c r st2 h
    simp only [List.flatMap_append, List.flatMap_cons, List.flatMap_nil, List.append_nil] at hsane ht hrm ⊢
    have e1 := ih (selectSane_append hsane).1 (metadataTruth_append ht).1
      (by intro hm; exact hrm (List.mem_append.2 (Or.inl hm)))
    rw [fs_run_append]
    exact step_gone h2 (selectSane_append hsane).2 e1 (metadataTruth_append ht).2
      (by intro hm; exact hrm (List.mem_append.2 (Or.inr hm)))

/-! ### Examples and limits for C13 and C14 -/

instance decUmaskTruth : ∀ u h, Decidable (UmaskTruth u h)
  | _, [] => isTrue trivial
  | u, ⟨c, r⟩ :: h => by
    cases c with
    | umask m =>
      have := decUmaskTruth (m &&& 0o777) h
      exact inferInstanceAs (Decidable ((r : Nat) = u ∧ UmaskTruth (m &&& 0o777) h))
    | _ => exact decUmaskTruth u h

instance decMetadataTruth (path : Bytes) (euid grp : Nat) : ∀ s h, Decidable (MetadataTruth path euid grp s h)
  | _, [] => isTrue trivial
  | s, ⟨c, r⟩ :: h => by
    have := decMetadataTruth path euid grp (Fs.step path euid grp s ⟨c, r⟩) h
    cases c with
    | metadata p =>
      have : Decidable (p = path → s.node ≠ none → (r : Option Bool) = some true) := inferInstance
      unfold MetadataTruth
      exact inferInstanceAs (Decidable ((p = path → s.node ≠ none → (r : Option Bool) = some true) ∧ _))
    | _ => unfold MetadataTruth; exact inferInstanceAs (Decidable (True ∧ _))

/-- `coop 121`, seen while the socket file exists and the umask is 0777. -/
def inside : Answer
  | .metadata _ => some true
  | .umask _ => (0o777 : Nat)
  | c => coop 121 c

/-- A truthful operating system and a pair who approves `sampleArgs`. -/
def truthful : Sched := List.replicate 6 (coop 121) ++ (List.replicate 8 inside ++ List.replicate 40 (coop 121))

/-- A listener descriptor that does not fit into an `fd_set`. -/
def highFd : Answer
  | .bind _ => .bound 1024
  | c => coop 121 c

def samplePath : Bytes := b! "/var/run/sudo_pair/1000.42.sock"

/-- The hypotheses of C13 and C14 are met by a run that connects, creates the socket and removes it. -/
example : retOf (Core.open sampleRt sampleArgs Core.init truthful).1 = some 1 ∧
    UmaskTruth 0o22 (Core.open sampleRt sampleArgs Core.init truthful).2.1 ∧
    MetadataTruth samplePath 0 0 ⟨0o22, none⟩ (Core.open sampleRt sampleArgs Core.init truthful).2.1 ∧
    nodeAfter sampleArgs 0 12 truthful = some ⟨0, 0, 0o200⟩ ∧ nodeAfter sampleArgs 0 13 truthful = none ∧
    Fs.run samplePath 0 0 ⟨0o22, none⟩ ((Core.open sampleRt sampleArgs Core.init truthful).2.1.take 12) =
      ⟨0o777, some ⟨0, 0, 0o200⟩⟩ ∧
    Fs.run samplePath 0 0 ⟨0o22, none⟩ (Core.open sampleRt sampleArgs Core.init truthful).2.1 = ⟨0o22, none⟩ := by
  decide +kernel

/-- A descriptor beyond `FD_SETSIZE` makes `Socket::open` panic.  The callback then returns -1, and the
process keeps the umask 0777. -/
theorem C13_panic_keeps_umask : ∃ s, retOf (Core.open sampleRt sampleArgs Core.init s).1 = some (-1) ∧
    UmaskTruth 0o22 (Core.open sampleRt sampleArgs Core.init s).2.1 ∧
    (Fs.run samplePath 0 0 ⟨0o22, none⟩ (Core.open sampleRt sampleArgs Core.init s).2.1).umask = 0o777 :=
  ⟨List.replicate 60 highFd, by decide +kernel⟩

/-- In the same situation the socket file stays, open to the target user. -/
theorem C14_panic_leaves_socket : ∃ s, retOf (Core.open sampleRt otherUserArgs Core.init s).1 = some (-1) ∧
    MetadataTruth samplePath 0 0 ⟨0o22, none⟩ (Core.open sampleRt otherUserArgs Core.init s).2.1 ∧
    (Fs.run samplePath 0 0 ⟨0o22, none⟩ (Core.open sampleRt otherUserArgs Core.init s).2.1).node =
      some ⟨1001, 0, 0o200⟩ :=
  ⟨List.replicate 60 highFd, by decide +kernel⟩

/-! ### C15 -/

/-- Every removal is of `path` and immediately preceded by the answer that `path` is a socket. -/
def RmOk (path : Bytes) (h : Hist) : Prop := ∀ a p b c, h = a ++ (⟨.removeFile p, b⟩ : Ev) :: c →
  p = path ∧ ∃ a', a = a' ++ [(⟨.metadata p, some true⟩ : Ev)]

theorem RmOk.append {path h h'} (h1 : RmOk path h) (h2 : RmOk path h') : RmOk path (h ++ h') := by
  intro a p b c heq
  rcases List.append_eq_append_iff.1 heq with ⟨t, rfl, h3⟩ | ⟨t, rfl, h3⟩
  · obtain ⟨k1, a', rfl⟩ := h2 _ _ _ _ h3
    exact ⟨k1, h ++ a', by simp⟩
  · cases t with
    | nil =>
      have := h2 [] p b c (by simpa using h3.symm)
      obtain ⟨_, a', h4⟩ := this
      simp at h4
    | cons y t =>
      simp only [List.cons_append, List.cons.injEq] at h3
      exact h1 a p b t (by rw [h3.1])

theorem rmOk_of_none {path h} (hn : ∀ e ∈ h, ∀ p, e.call ≠ .removeFile p) : RmOk path h := by
  intro a p b c heq
  exact absurd rfl (hn ⟨.removeFile p, b⟩ (by rw [heq]; simp) p)

theorem unlink_rmOk {path o h} (hu : Unlink path o h) : RmOk path h := by
  cases hu with
  | removed b =>
    intro a p b' c heq
    rcases a with _ | ⟨x, a⟩
    · simp only [List.nil_append, List.cons.injEq, Ev.mk.injEq] at heq; simp at heq
    · rcases a with _ | ⟨y, a⟩
      · simp only [List.cons_append, List.nil_append, List.cons.injEq, Ev.mk.injEq, Sys.removeFile.injEq] at heq
        obtain ⟨rfl, ⟨rfl, _⟩, _⟩ := heq
        exact ⟨rfl, [], rfl⟩
      · simp at heq
  | _ => exact rmOk_of_none (by simp)

theorem sockOpen_rmOk {rt path uid gid mode o h} (hs : SockOpen rt path uid gid mode o h) : RmOk path h := by
  have hv : ∀ {o h}, Vet rt path o h → RmOk path h := fun v => rmOk_of_none (by cases v <;> simp)
  have hb : ∀ {o h}, BindAcc rt path uid gid mode o h → RmOk path h := fun b => rmOk_of_none (by
    cases b with
    | bound ha => cases ha <;> simp
    | _ => simp)
  have hm : ∀ {m o h}, RmOk path h → RmOk path (⟨.umask m, o⟩ :: h) := by
    intro m o h hh
    exact RmOk.append (h := [⟨.umask m, o⟩]) (rmOk_of_none (by simp)) hh
  cases hs with
  | vetErr v => exact hv v
  | vetKilled v => exact hv v
  | unlErr v w => exact (hv v).append (unlink_rmOk w)
  | unlKilled v w => exact (hv v).append (unlink_rmOk w)
  | umaskKilled v w => exact (hv v).append (unlink_rmOk w)
  | accKilled v w b => exact (hv v).append ((unlink_rmOk w).append (hm (hb b)))
  | accPanic v w b => exact (hv v).append ((unlink_rmOk w).append (hm (hb b)))
  | finKilled v w b x => exact (hv v).append ((unlink_rmOk w).append (hm ((hb b).append (unlink_rmOk x))))
  | done v w b x =>
    exact (hv v).append ((unlink_rmOk w).append (hm ((hb b).append ((unlink_rmOk x).append
      (rmOk_of_none (by simp))))))

/-- C15: whatever callback is invoked in whatever state, and however the system answers: a file is only
removed by `open`, only at the approval socket path of the session, and only immediately after the
system reported that this path is a socket. -/
theorem C15_removals {rt : Rt} {c : Core.Call} {st : State} {o} {pre post : Hist} {p : Bytes} {b : Bool}
    (hr : Runs (Core.step rt c st) o (pre ++ ⟨.removeFile p, b⟩ :: post)) :
    (∃ a env0, c = .open a ∧ IoEnv.new rt a = some (.ok env0) ∧
      p = sessionPath (st.env.getD env0)) ∧
    ∃ pre', pre = pre' ++ [⟨.metadata p, some true⟩] := by
  by_cases hc : ∃ a, c = .open a
  · obtain ⟨a, rfl⟩ := hc
    rcases coreOpen_phases hr with hq | ⟨env1, p1, h1, h2, h3, mode, o2, hn, rfl, heq, k1, k2, k3, k4, k5, k6, -⟩
    · exact (hq ⟨.removeFile p, b⟩ (by simp)).elim
    · have hok : RmOk (Pair.ofEnv (effEnv st env1)).socketPath (h1 ++ (h2 ++ h3)) := by
        refine RmOk.append (rmOk_of_none ?_) (RmOk.append (sockOpen_rmOk k5) (rmOk_of_none ?_))
        · intro e he p hp; have := k1 e he; rw [hp] at this; exact this
        · intro e he p hp; have := k6 e he; rw [hp] at this; exact this
      obtain ⟨h4, h5⟩ := hok pre p b post heq.symm
      exact ⟨⟨a, env1, rfl, hn, h4.trans (sessionPath_eq _)⟩, h5⟩
  · have := (step_tail rt c st (fun a h => hc ⟨a, h⟩)).of_runs hr ⟨.removeFile p, b⟩ (by simp)
    exact this.elim

theorem mem_bind_vet {rt path o h p r} (hv : Vet rt path o h) : (⟨.bind p, r⟩ : Ev) ∉ h := by
  cases hv <;> simp

theorem mem_bind_unlink {path o h p r} (hv : Unlink path o h) : (⟨.bind p, r⟩ : Ev) ∉ h := by
  cases hv <;> simp

theorem quiet_no_metadata {h : Hist} (hq : Quiet h) {p r} : (⟨.metadata p, r⟩ : Ev) ∉ h :=
  fun hm => hq _ hm

/-- In `Socket::open`, a non-socket seen before `bind` ends it without `bind`. -/
theorem sockOpen_foreign {rt path uid gid mode o h pre post p}
    (hs : SockOpen rt path uid gid mode o h) (heq : h = pre ++ (⟨.metadata p, some false⟩ : Ev) :: post)
    (hb : ∀ q r, (⟨.bind q, r⟩ : Ev) ∉ pre) : o = .ok none ∧ post = [] := by
  have hv : ∀ {o h}, Vet rt path o h → (⟨.metadata p, some false⟩ : Ev) ∉ h := by
    intro o h hv; cases hv <;> simp
  have hu : ∀ {o h}, Unlink path o h → (⟨.metadata p, some false⟩ : Ev) ∈ h →
      o = .ok false ∧ h = [⟨.metadata p, some false⟩] := by
    intro o h hu hm
    cases hu <;> simp at hm
    subst hm; exact ⟨rfl, rfl⟩
  have two : ∀ {h1 h2}, Vet rt path (.ok true) h1 →
      pre ++ (⟨.metadata p, some false⟩ : Ev) :: post = h1 ++ h2 →
      ∃ t, h2 = t ++ ⟨.metadata p, some false⟩ :: post ∧ pre = h1 ++ t := by
    intro h1 h2 v heq
    rcases List.append_eq_append_iff.1 heq with ⟨t, rfl, h3⟩ | ⟨t, rfl, h3⟩
    · cases t with
      | nil => exact ⟨[], by simpa using h3.symm, by simp⟩
      | cons y t =>
        simp only [List.cons_append, List.cons.injEq] at h3
        exact absurd (by rw [h3.1]; simp) (hv v)
    · exact ⟨t, h3, rfl⟩
  have inU : ∀ {o' h1 h2 k}, Vet rt path (.ok true) h1 → Unlink path o' h2 →
      pre ++ (⟨.metadata p, some false⟩ : Ev) :: post = h1 ++ (h2 ++ k) →
      (∃ t, k = t ++ ⟨.metadata p, some false⟩ :: post ∧ pre = h1 ++ (h2 ++ t)) ∨
      (o' = .ok false ∧ post = k) := by
    intro o' h1 h2 k v w heq
    obtain ⟨t, h3, rfl⟩ := two v heq
    rcases List.append_eq_append_iff.1 h3 with ⟨t', rfl, h4⟩ | ⟨t', rfl, h4⟩
    · exact Or.inl ⟨t', h4, by simp⟩
    · cases t' with
      | nil => exact Or.inl ⟨[], by simpa using h4.symm, by simp⟩
      | cons y t' =>
        simp only [List.cons_append, List.cons.injEq] at h4
        obtain ⟨rfl, rfl⟩ := h4
        obtain ⟨h5, h6⟩ := hu w (by simp)
        right
        refine ⟨h5, ?_⟩
        have hl := congrArg List.length h6
        simp only [List.length_append, List.length_cons, List.length_nil] at hl
        have : t' = [] := List.eq_nil_of_length_eq_zero (by omega)
        rw [this]; rfl
  have late : ∀ {h1 h2 old k}, Vet rt path (.ok true) h1 → Unlink path (.ok true) h2 →
      (∃ q r k', k = (⟨.bind q, r⟩ : Ev) :: k') ∨ k = [] →
      pre ++ (⟨.metadata p, some false⟩ : Ev) :: post = h1 ++ (h2 ++ ⟨.umask 0o777, old⟩ :: k) → False := by
    intro h1 h2 old k v w hk heq
    rcases inU v w heq with ⟨t, h3, rfl⟩ | ⟨h3, _⟩
    · rcases t with _ | ⟨x, t⟩
      · simp at h3
      · simp only [List.cons_append, List.cons.injEq] at h3
        obtain ⟨rfl, rfl⟩ := h3
        rcases hk with ⟨q, r, k', hk⟩ | hk
        · rcases t with _ | ⟨y, t⟩
          · simp at hk
          · simp only [List.cons_append, List.cons.injEq] at hk
            exact hb q r (by rw [hk.1]; simp)
        · simp at hk
    · simp at h3
  have bk : ∀ {o h k}, BindAcc rt path uid gid mode o h → o ≠ .killed →
      ∃ q r k', h ++ k = (⟨.bind q, r⟩ : Ev) :: k' := by
    intro o h k b hne
    cases b with
    | killed => simp at hne
    | failed => exact ⟨_, _, _, rfl⟩
    | failLeft => exact ⟨_, _, _, rfl⟩
    | bound _ => exact ⟨_, _, _, rfl⟩
  cases hs with
  | vetErr v => exact absurd (by rw [heq]; simp) (hv v)
  | vetKilled v => exact absurd (by rw [heq]; simp) (hv v)
  | unlErr v w =>
    rcases inU (k := []) v w (by simpa using heq.symm) with ⟨t, h3, _⟩ | ⟨_, h3⟩
    · simp at h3
    · exact ⟨rfl, h3⟩
  | unlKilled v w =>
    rcases inU (k := []) v w (by simpa using heq.symm) with ⟨t, h3, _⟩ | ⟨h3, _⟩
    · simp at h3
    · simp at h3
  | umaskKilled v w =>
    rcases inU (k := []) v w (by simpa using heq.symm) with ⟨t, h3, _⟩ | ⟨h3, _⟩
    · simp at h3
    · simp at h3
  | accKilled v w b =>
    refine (late v w ?_ heq.symm).elim
    cases b with
    | killed => exact Or.inr rfl
    | bound _ => exact Or.inl ⟨_, _, _, rfl⟩
  | accPanic v w b =>
    have := bk (k := []) b (by simp)
    rw [List.append_nil] at this
    exact (late v w (Or.inl this) heq.symm).elim
  | finKilled v w b x => exact (late v w (Or.inl (bk b (by simp))) heq.symm).elim
  | done v w b x => exact (late v w (Or.inl (bk b (by simp))) heq.symm).elim

/-- C15: if the system reports something other than a socket at the socket path before `bind`, the
session is refused: `open` returns -1 (or is killed), no socket is bound and nothing is removed
afterwards.  (Only the messages about the error follow.) -/
theorem C15_foreign_refused {rt : Rt} {a : OpenArgs} {st : State} {o} {pre post : Hist} {p : Bytes}
    (hr : Runs (Core.open rt a st) o (pre ++ ⟨.metadata p, some false⟩ :: post))
    (hb : ∀ q r, (⟨.bind q, r⟩ : Ev) ∉ pre) :
    ((∃ st', o = .ok (-1, st')) ∨ o = .killed) ∧ ∀ e ∈ post, ∃ l t, e.call = .printf l t := by
  rcases coreOpen_phases hr with hq |
    ⟨env1, p1, h1, h2, h3, mode, o2, hn, rfl, heq, k1, k2, k3, k4, k5, k6, k7, k8, k9, k10⟩
  · exact absurd (by simp) (quiet_no_metadata hq (p := p) (r := some false))
  · have hq1 := quiet_no_metadata k1 (p := p) (r := some false)
    have h3n : (⟨.metadata p, some false⟩ : Ev) ∉ h3 := fun hm => k6 _ hm
    obtain ⟨t, h4, rfl⟩ : ∃ t, h2 ++ h3 = t ++ (⟨.metadata p, some false⟩ : Ev) :: post ∧ pre = h1 ++ t := by
      rcases List.append_eq_append_iff.1 heq with ⟨t, rfl, h5⟩ | ⟨t, rfl, h5⟩
      · cases t with
        | nil => exact ⟨[], by simpa using h5.symm, by simp⟩
        | cons y t =>
          simp only [List.cons_append, List.cons.injEq] at h5
          exact absurd (by rw [h5.1]; simp) hq1
      · exact ⟨t, h5, rfl⟩
    obtain ⟨post', h5, rfl⟩ : ∃ post', h2 = t ++ (⟨.metadata p, some false⟩ : Ev) :: post' ∧ post = post' ++ h3 := by
      rcases List.append_eq_append_iff.1 h4 with ⟨t', rfl, h5⟩ | ⟨t', rfl, h5⟩
      · exact absurd (by rw [h5]; simp) h3n
      · cases t' with
        | nil => exact absurd (by simp at h5; rw [← h5]; simp) h3n
        | cons y t' =>
          simp only [List.cons_append, List.cons.injEq] at h5
          exact ⟨t', by rw [h5.1], h5.2⟩
    obtain ⟨rfl, rfl⟩ := sockOpen_foreign k5 h5 (fun q r hm => hb q r (by simp [hm]))
    refine ⟨k10 (by simp), fun e he => ?_⟩
    have := k7 (by simp) e (by simpa using he)
    rcases e with ⟨c, r⟩
    cases c <;> first | exact False.elim this | exact ⟨_, _, rfl⟩

/-- A stale socket is there. -/
def stale : Answer
  | .metadata _ => some true
  | c => coop 121 c

/-- Something else is there. -/
def foreign : Answer
  | .metadata _ => some false
  | c => coop 121 c

/-- The hypotheses of C15 are met: a stale socket is removed; the session goes on. -/
example : retOf (Core.open sampleRt sampleArgs Core.init (List.replicate 60 stale)).1 = some 1 ∧
    ((Core.open sampleRt sampleArgs Core.init (List.replicate 60 stale)).2.1.map Ev.call).take 6 =
      [.readFile (b! "/etc/sudo_pair.prompt.user"), .ttyOpen (b! "/dev/pts/0"),
       .ttyWrite (b! "/usr/bin/sudo_approve 1000 42\n"), .stat (b! "/var/run/sudo_pair"),
       .metadata samplePath, .removeFile samplePath] := by
  decide +kernel

/-- ... and a foreign file is not, and the session is refused. -/
example : retOf (Core.open sampleRt sampleArgs Core.init (List.replicate 60 foreign)).1 = some (-1) ∧
    ((Core.open sampleRt sampleArgs Core.init (List.replicate 60 foreign)).2.1.map Ev.call).take 6 =
      [.readFile (b! "/etc/sudo_pair.prompt.user"), .ttyOpen (b! "/dev/pts/0"),
       .ttyWrite (b! "/usr/bin/sudo_approve 1000 42\n"), .stat (b! "/var/run/sudo_pair"),
       .metadata samplePath, .printf 3 (b! "\n")] := by
  decide +kernel

/-! ### C16 -/

theorem only_pos {α : Type} {P : α → Prop} {A k pre post : List α} {x y : α} (hA : ∀ z ∈ A, ¬ P z)
    (hk : ∀ z ∈ k, ¬ P z) (hy : P y) (h : A ++ x :: k = pre ++ y :: post) : pre = A ∧ y = x := by
  rcases List.append_eq_append_iff.1 h with ⟨t, rfl, h3⟩ | ⟨t, rfl, h3⟩
  · cases t with
    | nil =>
      simp only [List.nil_append, List.cons.injEq] at h3
      exact ⟨by simp, h3.1.symm⟩
    | cons z t =>
      simp only [List.cons_append, List.cons.injEq] at h3
      exact absurd hy (hk y (by rw [h3.2]; simp))
  · cases t with
    | nil =>
      simp only [List.nil_append, List.cons.injEq] at h3
      exact ⟨by simp, h3.1⟩
    | cons z t =>
      simp only [List.cons_append, List.cons.injEq] at h3
      exact absurd hy (hA y (by rw [h3.1]; simp))

/-- The event is a `bind`. -/
def IsBind (e : Ev) : Prop := ∃ p, e.call = .bind p

theorem vet_noBind {rt path o h} (hv : Vet rt path o h) : ∀ e ∈ h, ¬ IsBind e := by
  cases hv <;> simp [IsBind]

theorem unlink_noBind {path o h} (hv : Unlink path o h) : ∀ e ∈ h, ¬ IsBind e := by
  cases hv <;> simp [IsBind]

theorem bindAcc_bind {rt path uid gid mode o h} (hb : BindAcc rt path uid gid mode o h) :
    h = [] ∨ ∃ r k, h = ⟨.bind path, r⟩ :: k ∧ ∀ e ∈ k, ¬ IsBind e := by
  cases hb with
  | killed => exact Or.inl rfl
  | failed => exact Or.inr ⟨_, [], rfl, by simp⟩
  | failLeft => exact Or.inr ⟨_, [], rfl, by simp⟩
  | bound ha => exact Or.inr ⟨_, _, rfl, by cases ha <;> simp [IsBind]⟩

/-- A call between the vetting of the directory and `bind`. -/
def PrepCall (path : Bytes) (c : Sys) : Prop :=
  c = .metadata path ∨ c = .removeFile path ∨ c = .umask 0o777

theorem sockOpen_vetted {rt path uid gid mode o pre post p r}
    (hs : SockOpen rt path uid gid mode o (pre ++ (⟨.bind p, r⟩ : Ev) :: post)) :
    p = path ∧ ∃ d fst mid, pre = ⟨.stat d, some fst⟩ :: mid ∧ Path.parent path = some d ∧
      fst.mode &&& 0o040000 ≠ 0 ∧ fst.uid = rt.euid ∧ fst.mode &&& 0o022 = 0 ∧
      ∀ e ∈ mid, PrepCall path e.call := by
  generalize heq : pre ++ (⟨.bind p, r⟩ : Ev) :: post = h at hs
  have hvb : ∀ {o h}, Vet rt path o h → pre ++ (⟨.bind p, r⟩ : Ev) :: post = h → False := by
    intro o h v e
    exact vet_noBind v ⟨.bind p, r⟩ (by rw [← e]; simp) ⟨p, rfl⟩
  have hub : ∀ {o h o' h'}, Vet rt path o h → Unlink path o' h' →
      pre ++ (⟨.bind p, r⟩ : Ev) :: post = h ++ h' → False := by
    intro o h o' h' v w e
    have hm : (⟨.bind p, r⟩ : Ev) ∈ h ++ h' := by rw [← e]; simp
    rcases List.mem_append.1 hm with hm | hm
    · exact vet_noBind v _ hm ⟨p, rfl⟩
    · exact unlink_noBind w _ hm ⟨p, rfl⟩
  have main : ∀ {h1 h2 old o' h3 k}, Vet rt path (.ok true) h1 → Unlink path (.ok true) h2 →
      BindAcc rt path uid gid mode o' h3 → (h3 = [] → k = []) → (∀ e ∈ k, ¬ IsBind e) →
      pre ++ (⟨.bind p, r⟩ : Ev) :: post = h1 ++ (h2 ++ ⟨.umask 0o777, old⟩ :: (h3 ++ k)) →
      p = path ∧ ∃ d fst mid, pre = ⟨.stat d, some fst⟩ :: mid ∧ Path.parent path = some d ∧
      fst.mode &&& 0o040000 ≠ 0 ∧ fst.uid = rt.euid ∧ fst.mode &&& 0o022 = 0 ∧
      ∀ e ∈ mid, PrepCall path e.call := by
    intro h1 h2 old o' h3 k v w b hk0 hk e
    have hA : ∀ z ∈ h1 ++ (h2 ++ [(⟨.umask 0o777, old⟩ : Ev)]), ¬ IsBind z :=
      List.forall_mem_append.2 ⟨vet_noBind v, List.forall_mem_append.2 ⟨unlink_noBind w, by simp [IsBind]⟩⟩
    rcases bindAcc_bind b with rfl | ⟨r', k', rfl, hk'⟩
    · have hm : (⟨.bind p, r⟩ : Ev) ∈ h1 ++ (h2 ++ [(⟨.umask 0o777, old⟩ : Ev)]) := by
        have hk1 := hk0 rfl
        subst hk1
        simp only [List.append_nil] at e
        rw [← e]; simp
      exact absurd ⟨p, rfl⟩ (hA _ hm)
    · obtain ⟨hpre, hx⟩ := only_pos (P := IsBind) (x := (⟨.bind path, r'⟩ : Ev)) (k := k' ++ k) hA
        (List.forall_mem_append.2 ⟨hk', hk⟩) ⟨p, rfl⟩ (by simpa using e.symm)
      simp only [Ev.mk.injEq, Sys.bind.injEq] at hx
      refine ⟨hx.1, ?_⟩
      cases v with
      | good h4 h5 h6 h7 =>
        refine ⟨_, _, h2 ++ [(⟨.umask 0o777, old⟩ : Ev)], by simpa using hpre, h4, h5, h6, h7, ?_⟩
        refine List.forall_mem_append.2 ⟨?_, by simp [PrepCall]⟩
        cases w <;> simp [PrepCall]
  cases hs with
  | vetErr v => exact (hvb v heq).elim
  | vetKilled v => exact (hvb v heq).elim
  | unlErr v w => exact (hub v w heq).elim
  | unlKilled v w => exact (hub v w heq).elim
  | umaskKilled v w => exact (hub v w heq).elim
  | accKilled v w b => exact main (k := []) v w b (fun _ => rfl) (by simp) (by simpa using heq)
  | accPanic v w b => exact main (k := []) v w b (fun _ => rfl) (by simp) (by simpa using heq)
  | finKilled v w b x =>
    refine main v w b ?_ (unlink_noBind x) heq
    rintro rfl; cases b
  | done v w b x =>
    refine main v w b ?_ ?_ heq
    · rintro rfl; cases b
    · exact List.forall_mem_append.2 ⟨unlink_noBind x, by simp [IsBind]⟩

theorem parent_socketPath {p : Pair} {d : Bytes} (h : Path.parent p.socketPath = some d) :
    SamePath d p.options.socketDir := by
  obtain ⟨_, c, h1⟩ := Path.parent_some h
  rw [socketPath_components] at h1
  obtain ⟨h2, _⟩ := List.append_inj' h1 rfl
  exact (path_eq_iff _ _).1 (by unfold Path.eq; simp [h2])

/-- C16 (partial): whatever callback is invoked in whatever state, and however the system answers: a
socket is only bound by `open`, at the session's approval socket path, and only if `stat` of the
configured `socket_dir` just before (nothing but the removal of a stale socket and `umask` is in
between) reported that it is owned by sudo's effective uid, is not writable by group or others, and has
the type bit 040000.

Missing: that bit alone does not make it a directory, `C16_counterexample`; `C16_types_partial` says
what else passes. -/
theorem C16_vetted_partial {rt : Rt} {c : Core.Call} {st : State} {o} {pre post : Hist} {p : Bytes} {r : BindRes}
    (hr : Runs (Core.step rt c st) o (pre ++ ⟨.bind p, r⟩ :: post)) :
    ∃ a env0 d fst pre' mid, c = .open a ∧ IoEnv.new rt a = some (.ok env0) ∧
      p = sessionPath (st.env.getD env0) ∧
      pre = pre' ++ ⟨.stat d, some fst⟩ :: mid ∧
      SamePath d (PluginOptions.ofMap (st.env.getD env0).pluginOptions).socketDir ∧
      fst.mode &&& 0o040000 ≠ 0 ∧ fst.uid = rt.euid ∧ fst.mode &&& 0o022 = 0 ∧
      ∀ e ∈ mid, e.call = .metadata p ∨ e.call = .removeFile p ∨ e.call = .umask 0o777 := by
  by_cases hc : ∃ a, c = .open a
  · obtain ⟨a, rfl⟩ := hc
    rcases coreOpen_phases hr with hq | ⟨env1, p1, h1, h2, h3, mode, o2, hn, rfl, heq, k1, k2, k3, k4, k5, k6, -⟩
    · exact (hq ⟨.bind p, r⟩ (by simp)).elim
    · obtain ⟨t, h4, rfl⟩ : ∃ t, h2 ++ h3 = t ++ (⟨.bind p, r⟩ : Ev) :: post ∧ pre = h1 ++ t := by
        rcases List.append_eq_append_iff.1 heq with ⟨t, rfl, h5⟩ | ⟨t, rfl, h5⟩
        · cases t with
          | nil => exact ⟨[], by simpa using h5.symm, by simp⟩
          | cons y t =>
            simp only [List.cons_append, List.cons.injEq] at h5
            exact (k1 ⟨.bind p, r⟩ (by rw [h5.1]; simp)).elim
        · exact ⟨t, h5, rfl⟩
      obtain ⟨post', h5, rfl⟩ : ∃ post', h2 = t ++ (⟨.bind p, r⟩ : Ev) :: post' ∧ post = post' ++ h3 := by
        rcases List.append_eq_append_iff.1 h4 with ⟨t', rfl, h5⟩ | ⟨t', rfl, h5⟩
        · exact (k6 ⟨.bind p, r⟩ (by rw [h5]; simp)).elim
        · cases t' with
          | nil => exact (k6 ⟨.bind p, r⟩ (by simp at h5; rw [← h5]; simp)).elim
          | cons y t' =>
            simp only [List.cons_append, List.cons.injEq] at h5
            exact ⟨t', by rw [h5.1], h5.2⟩
      subst h5
      obtain ⟨rfl, d, fst, mid, rfl, h6, h7, h8, h9, h10⟩ := sockOpen_vetted k5
      exact ⟨a, env1, d, fst, h1, mid, rfl, hn, sessionPath_eq _, rfl,
        parent_socketPath (p := Pair.ofEnv (effEnv st env1)) h6, h7, h8, h9, h10⟩
  · have := (step_tail rt c st (fun a h => hc ⟨a, h⟩)).of_runs hr ⟨.bind p, r⟩ (by simp)
    exact this.elim

/-- C16 (partial): among the file types of POSIX, what has the bit 040000 is a directory, a block device
or a socket. -/
theorem C16_types_partial (mode : Nat) (h : mode &&& 0o040000 ≠ 0) (ht : mode &&& 0o170000 ∈ fileTypes) :
    isDirectory mode ∨ mode &&& 0o170000 = 0o060000 ∨ mode &&& 0o170000 = 0o140000 := by
  have key : mode &&& 0o040000 = (mode &&& 0o170000) &&& 0o040000 := by
    rw [Nat.and_assoc]; rfl
  rw [key] at h
  unfold isDirectory
  simp only [fileTypes, List.mem_cons, List.not_mem_nil, or_false] at ht
  rcases ht with ht | ht | ht | ht | ht | ht | ht <;> rw [ht] at h ⊢ <;> simp at h ⊢

/-- The parent of the socket path is a block device. -/
def blockDevice : Answer
  | .stat _ => some ⟨0o060755, 0⟩
  | c => coop 121 c

/-- C16 is false as stated: a block device passes for a directory, `bind` is called and the session
approved. -/
theorem C16_counterexample : ¬ isDirectory 0o060755 ∧
    retOf (Core.open sampleRt sampleArgs Core.init (List.replicate 60 blockDevice)).1 = some 1 ∧
    Sys.bind samplePath ∈
      (Core.open sampleRt sampleArgs Core.init (List.replicate 60 blockDevice)).2.1.map Ev.call := by
  refine ⟨by unfold isDirectory; decide, by decide +kernel, by decide +kernel⟩

/-- The hypothesis of C16 is met by an ordinary session. -/
example : Sys.bind samplePath ∈
    (Core.open sampleRt sampleArgs Core.init (List.replicate 60 (coop 121))).2.1.map Ev.call := by
  decide +kernel

end SudoPair
