import Verif.Spec.Together
import Verif.Props.World
/-
C73: sessions at the same time do not disturb each other.
-/
namespace SudoPair
open Spec Core

/-- The call creates, removes or changes the file at `p`. -/
def Alters : Sys → Bytes → Prop
  | .removeFile q, p => q = p
  | .bind q, p => q = p
  | .chown q _ _, p => q = p
  | .chmod q _, p => q = p
  | _, _ => False

theorem next_alters {P : Plan} {ph ph' : Phase} {e : Ev} {p : Bytes} (h : P.next ph e = some ph') (ha : Alters e.call p) :
    p = P.path := by
  obtain ⟨call, resp⟩ := e
  cases call <;> simp only [Alters] at ha <;> subst ha <;> cases ph <;>
    simp only [Plan.next, cleanup, reduceCtorEq] at h <;> (repeat' split at h) <;> simp_all

theorem follow_alters {P : Plan} {p : Bytes} : ∀ {h : Hist} {ph ph' : Phase}, P.follow ph h = some ph' →
    ∀ e ∈ h, Alters e.call p → p = P.path
  | [], _, _, _, e, he, _ => by simp at he
  | x :: h, ph, ph', hf, e, he, ha => by
    simp only [Plan.follow] at hf
    cases hn : P.next ph x with
    | none => rw [hn] at hf; simp at hf
    | some ph1 =>
      rw [hn] at hf
      rcases List.mem_cons.1 he with rfl | he
      · exact next_alters hn ha
      · exact follow_alters hf e he ha

theorem step_alters {rt : Rt} {c : Call} {st : State} {o h e p} (hr : Runs (Core.step rt c st) o h) (he : e ∈ h)
    (ha : Alters e.call p) :
    ∃ a env0, c = .open a ∧ IoEnv.new rt a = some (.ok env0) ∧ p = (Pair.ofEnv (effEnv st env0)).socketPath := by
  by_cases hc : ∃ a, c = .open a
  · obtain ⟨a, rfl⟩ := hc
    by_cases hn : ∃ env0, IoEnv.new rt a = some (.ok env0)
    · obtain ⟨env0, hn⟩ := hn
      obtain ⟨ph, hf⟩ := order_runs hr hn
      exact ⟨a, env0, rfl, hn, follow_alters hf e he ha⟩
    · have hf := C54_no_session hr (fun env0 h => hn ⟨env0, h⟩) ⟨[], p ++ [0], 0, 0, 0, [], fun _ => []⟩
      have := follow_alters hf e he ha
      simp at this
  · have := (step_tail rt c st (fun a h => hc ⟨a, h⟩)).of_runs hr e he
    obtain ⟨call, resp⟩ := e
    cases call <;> first | exact ha.elim | exact this.elim

theorem step_env {rt : Rt} {c : Call} {st st' : State} {r h} (hr : Runs (Core.step rt c st) (.ok (r, st')) h) {env : IoEnv}
    (he : st'.env = some env) : st.env = some env ∨ ∃ a, c = .open a ∧ IoEnv.new rt a = some (.ok env) := by
  cases c with
  | «open» a =>
    have hr : Runs (Core.open rt a st) (.ok (r, st')) h := hr
    by_cases hn : ∃ env0, IoEnv.new rt a = some (.ok env0)
    · obtain ⟨env0, hn⟩ := hn
      have := open_env hr hn
      rw [he] at this
      cases hs : st.env with
      | none => right; refine ⟨a, rfl, ?_⟩; rw [hn]; simp [effEnv, hs] at this; rw [this]
      | some e => left; simp [effEnv, hs] at this; rw [this]
    · left
      generalize ho : Out.ok (r, st') = o at hr
      cases coreOpen_runs hr <;> first
        | exact absurd ⟨_, ‹_›⟩ hn
        | (simp only [Out.ok.injEq, Prod.mk.injEq, reduceCtorEq] at ho; try (obtain ⟨rfl, rfl⟩ := ho; exact he))
  | close =>
    rcases step_bind_runs hr with ⟨s, h1, h2⟩ | ⟨h1, _⟩ | ⟨h1, _⟩
    · rcases coreClose_runs h2 with ⟨h3, _⟩ | ⟨h3, _⟩ | ⟨_, _, _, _, _, _, h3, _⟩
      · simp at h3
      · simp only [Out.ok.injEq] at h3
        subst h3
        simp only [Out.ok.injEq, Prod.mk.injEq] at h1
        rw [h1.2] at he
        simp at he
      · simp only [Out.ok.injEq] at h3
        subst h3
        simp only [Out.ok.injEq, Prod.mk.injEq] at h1
        rw [h1.2] at he
        simp at he
    · simp at h1
    · simp at h1
  | showVersion =>
    rcases step_bind_runs hr with ⟨s, h1, _⟩ | ⟨h1, _⟩ | ⟨h1, _⟩ <;>
      simp only [Out.ok.injEq, Prod.mk.injEq, reduceCtorEq] at h1
    rw [h1.2] at he; exact Or.inl he
  | log f buf =>
    rcases step_bind_runs hr with ⟨s, h1, _⟩ | ⟨h1, _⟩ | ⟨h1, _⟩ <;>
      simp only [Out.ok.injEq, Prod.mk.injEq, reduceCtorEq] at h1
    rw [h1.2] at he; exact Or.inl he
  | changeWinsize l cc =>
    rcases step_bind_runs hr with ⟨s, h1, _⟩ | ⟨h1, _⟩ | ⟨h1, _⟩ <;>
      simp only [Out.ok.injEq, Prod.mk.injEq, reduceCtorEq] at h1
    rw [h1.2] at he; exact Or.inl he

/-- Every file that a process with the plugin creates, removes or changes is the socket of a session for which its
`open` was called. -/
theorem run_alters {rt : Rt} {Q : IoEnv → Prop} {e : Ev} {p : Bytes} (ha : Alters e.call p) :
    ∀ {cs : List Call} {st : State} {o h}, Runs (Core.run rt cs st) o h → e ∈ h → (∀ env, st.env = some env → Q env) →
      (∀ a, .open a ∈ cs → ∀ env, IoEnv.new rt a = some (.ok env) → Q env) →
      ∃ env, Q env ∧ p = (Pair.ofEnv env).socketPath
  | [], st, o, h, hr, he, _, _ => by
    obtain ⟨_, rfl⟩ := Runs.pure hr
    simp at he
  | c :: cs, st, o, h, hr, he, hst, hcs => by
    have key : ∀ {o h}, Runs (Core.step rt c st) o h → e ∈ h → ∃ env, Q env ∧ p = (Pair.ofEnv env).socketPath := by
      intro o h hs hm
      obtain ⟨a, env0, rfl, hn, hp⟩ := step_alters hs hm ha
      refine ⟨effEnv st env0, ?_, hp⟩
      cases hse : st.env with
      | none => simpa [effEnv, hse] using hcs a (by simp) env0 hn
      | some env => simpa [effEnv, hse] using hst env hse
    unfold Core.run at hr
    inv Runs.bind hr with ⟨⟨r, st1⟩, h1, h2, hs, hr, rfl⟩ | ⟨hk, hs⟩ | ⟨hk, hs⟩
    · rcases List.mem_append.1 he with he | he
      · exact key hs he
      · have hst1 : ∀ env, st1.env = some env → Q env := by
          intro env h3
          rcases step_env hs h3 with h4 | ⟨a, rfl, h4⟩
          · exact hst env h4
          · exact hcs a (by simp) env h4
        have hcs1 : ∀ a, .open a ∈ cs → ∀ env, IoEnv.new rt a = some (.ok env) → Q env :=
          fun a h => hcs a (List.mem_cons_of_mem _ h)
        inv Runs.bind hr with ⟨⟨rs', st2⟩, h3, h4, hrun, hr, rfl⟩ | ⟨hk, hrun⟩ | ⟨hk, hrun⟩
        · obtain ⟨_, rfl⟩ := hr.pure
          rw [List.append_nil] at he
          exact run_alters ha hrun he hst1 hcs1
        · exact run_alters ha hrun he hst1 hcs1
        · exact run_alters ha hrun he hst1 hcs1
    · exact key hs he
    · exact key hs he

theorem lastName_components {path name : Bytes} :
    LastName path name ↔ (Path.components path).getLast? = some (.normal name) := by
  constructor
  · rintro ⟨h47, h0, h1, h2, h⟩
    rcases h with h | ⟨dir, h⟩
    · rw [Path.components_same h, Path.components_eq, Path.name_body h47 h0 h1 h2]
      simp
    · rw [Path.components_same h, List.append_assoc, List.singleton_append, Path.components_append,
        Path.name_body h47 h0 h1 h2]
      simp
  · intro hn
    obtain ⟨cs, hcs⟩ := List.getLast?_eq_some_iff.1 hn
    obtain ⟨h1, h2, h3, h4⟩ := normal_name (p := path) (n := name) (by rw [hcs]; simp)
    refine ⟨h1, h2, h3, h4, ?_⟩
    have hs := Path.same_spell path
    rw [hcs] at hs
    cases cs with
    | nil => left; simpa [Path.spell, Path.name] using hs
    | cons c cs =>
      right
      refine ⟨Path.name c ++ cs.flatMap (fun c => 47 :: Path.name c), ?_⟩
      have e : Path.spell (c :: cs ++ [.normal name]) =
          Path.name c ++ (cs ++ [Comp.normal name]).flatMap (fun c => 47 :: Path.name c) := by
        cases cs <;> cases c <;> rfl
      rw [e] at hs
      simpa [Path.name] using hs

theorem socketPath_lastName (p : Pair) :
    LastName p.socketPath (socketName p.env.userInfo.uid p.env.userInfo.pid) := by
  rw [lastName_components, socketPath_components]
  simp

theorem lastName_unique {path n n' : Bytes} (h : LastName path n) (h' : LastName path n') : n = n' := by
  rw [lastName_components] at h h'
  rw [h] at h'
  simpa using h'

/-! ### C73 -/

/-- C73: every file that a process with the plugin creates, removes or changes, in any sequence of calls by sudo, has
as its last name the uid and the pid of one of the sessions for which `open` was called. -/
theorem C73_files {rt : Rt} {cs : List Call} {o} {h : Hist} (hr : Runs (Core.run rt cs Core.init) o h) {e : Ev} (he : e ∈ h)
    {p : Bytes} (ha : Alters e.call p) : ∃ a env, .open a ∈ cs ∧ IoEnv.new rt a = some (.ok env) ∧
      LastName p (decimal env.userInfo.uid ++ b! "." ++ decimalInt env.userInfo.pid ++ b! ".sock") := by
  obtain ⟨env, ⟨a, h1, h2⟩, rfl⟩ := run_alters (Q := fun env => ∃ a, .open a ∈ cs ∧ IoEnv.new rt a = some (.ok env)) ha hr he
    (by simp [Core.init]) (fun a h1 env h2 => ⟨a, h1, h2⟩)
  exact ⟨a, env, h1, h2, socketPath_lastName (Pair.ofEnv env)⟩

/-- The history of a process with the plugin whose sessions are not that of the given uid and pid, in any sequence of
calls by sudo. -/
def Elsewhere (uid : Nat) (pid : Int) (h : Hist) : Prop :=
  ∃ rt cs o, Runs (Core.run rt cs Core.init) o h ∧ ∀ a, .open a ∈ cs → ∀ env, IoEnv.new rt a = some (.ok env) →
    ¬ (env.userInfo.uid = uid ∧ env.userInfo.pid = pid)

theorem elsewhere_names {uid : Nat} {pid : Int} {h : Hist} (hh : Elsewhere uid pid h) {e : Ev} (he : e ∈ h) {p : Bytes}
    (ha : Alters e.call p) : ∃ uid' pid', LastName p (socketName uid' pid') ∧ ¬ LastName p (socketName uid pid) := by
  obtain ⟨rt, cs, o, hr, hne⟩ := hh
  obtain ⟨a, env, h1, h2, h3⟩ := C73_files hr he ha
  refine ⟨_, _, h3, fun h4 => hne a h1 env h2 ?_⟩
  exact socketName_injective (lastName_unique h3 h4)

theorem theirs_id {S : Site} {names : Bytes → Bool} {w : World} {e : Ev}
    (h : ∀ p, Alters e.call p → names p = false ∧ S.isDir p = false) : S.theirs names w e = w := by
  obtain ⟨call, resp⟩ := e
  unfold Site.theirs
  split <;> first
    | rfl
    | (rename_i heq; cases heq; simp [h _ rfl])

/-- C73: whatever the plugin does in other processes, for sessions that differ in uid or pid, has no effect on the
socket and the directory of the watched session: it is as if they were not there.  That holds as long as all paths that
lead to the place of the socket have its name, and none that leads to the directory has a name like that of a
socket. -/
theorem C73_undisturbed {uid : Nat} {pid : Int} {S : Site} {names : Bytes → Bool}
    (hn : ∀ p, names p = true → LastName p (decimal uid ++ b! "." ++ decimalInt pid ++ b! ".sock"))
    (hd : ∀ p, S.isDir p = true → ∀ uid' pid', ¬ LastName p (decimal uid' ++ b! "." ++ decimalInt pid' ++ b! ".sock"))
    {l : List Bustle} (hl : ∀ i, Elsewhere uid pid (ofProcess i l)) (w : World) :
    S.bustles names w l = S.run w (apart l) := by
  have key : ∀ i e, .inr (i, e) ∈ l → ∀ p, Alters e.call p → names p = false ∧ S.isDir p = false := by
    intro i e hm p ha
    have he : e ∈ ofProcess i l := List.mem_filterMap.2 ⟨.inr (i, e), hm, by simp⟩
    obtain ⟨uid', pid', h1, h2⟩ := elsewhere_names (hl i) he ha
    constructor
    · exact Bool.eq_false_iff.2 fun h => h2 (hn p h)
    · exact Bool.eq_false_iff.2 fun h => hd p h uid' pid' h1
  clear hl hn hd
  induction l generalizing w with
  | nil => rfl
  | cons x l ih =>
    have ih := fun w => ih w (fun i e h => key i e (List.mem_cons_of_mem _ h))
    cases x with
    | inl x => simp only [Site.bustles, apart, List.filterMap_cons, Site.run]; exact congrArg _ (funext ih)
    | inr x =>
      obtain ⟨i, e⟩ := x
      simp only [Site.bustles, apart, List.filterMap_cons]
      rw [theirs_id (key i e (by simp))]
      exact ih w

/-- The other events are those of the plugin in other sessions, and the paths are what they seem. -/
structure Crowd (env : IoEnv) (S : Site) (names : Bytes → Bool) (l : List Bustle) : Prop where
  sessions : ∀ i, Elsewhere env.userInfo.uid env.userInfo.pid (ofProcess i l)
  socket : ∀ p, names p = true → LastName p (decimal env.userInfo.uid ++ b! "." ++ decimalInt env.userInfo.pid ++ b! ".sock")
  dir : ∀ p, S.isDir p = true → ∀ uid pid, ¬ LastName p (decimal uid ++ b! "." ++ decimalInt pid ++ b! ".sock")

/-- C73: hence with any number of other sessions at the same time, too, the peer of a connection that the plugin accepts
is one of those of C67, or an insider has interfered otherwise than by using sudo_pair. -/
theorem C73_peer {rt : Rt} {a : OpenArgs} {st : State} {o} {h : Hist}
    (hr : Runs (Core.open rt a st) o h) {env0 : IoEnv}
    (hnew : IoEnv.new rt a = some (.ok env0)) {env : IoEnv} (henv : env = st.env.getD env0)
    (hu : env.commandInfo.runasEuid ≠ noId ∨ rt.euid = 0)
    (hg : env.userInfo.uid = env.commandInfo.runasEuid → env.commandInfo.runasEgid ≠ noId)
    {S : Site} (hS : S.path = sessionPath env) (hSe : S.euid = rt.euid)
    (hSd : ∀ d, SamePath d (PluginOptions.ofMap env.pluginOptions).socketDir → S.isDir d = true)
    {names : Bytes → Bool} {l l3 : List Bustle} {fd : Nat} {conn : Conn}
    (hc : Crowd env S names (l ++ .inl (.inl ⟨.accept fd, some conn⟩) :: l3))
    (hl : owns (apart (l ++ .inl (.inl ⟨.accept fd, some conn⟩) :: l3)) = h)
    {w w' : World} (hw : S.bustles names w (l ++ .inl (.inl ⟨.accept fd, some conn⟩) :: l3) = some w') :
    ∃ d fst l1 l2, apart l = l1 ++ .inl ⟨.stat d, some fst⟩ :: l2 ∧
      SamePath d (PluginOptions.ofMap env.pluginOptions).socketDir ∧ fst.uid = rt.euid ∧ fst.mode &&& 0o022 = 0 ∧
      ((Vouched env conn.peer ∧ .inr (conn.peer, .connect) ∈ l2) ∨ ∃ c a, .inr (c, a) ∈ l2 ∧ a.Meddles ∧ Insider rt env c) := by
  rw [C73_undisturbed hc.socket hc.dir hc.sessions] at hw
  have e : apart (l ++ .inl (.inl ⟨.accept fd, some conn⟩) :: l3) =
      apart l ++ .inl ⟨.accept fd, some conn⟩ :: apart l3 := by simp [apart]
  rw [e] at hw hl
  obtain ⟨l1, d, fst, l2, h1, h2, h3, h4, h5⟩ := C67_peer hr hnew henv hu hg hS hSe hSd hl hw
  exact ⟨d, fst, l1, l2, h1, h2, h3, h4, h5⟩

/-- C73: and with any number of other sessions at the same time, whoever has approved this one is one of those of
C67. -/
theorem C73_approved {rt : Rt} {a : OpenArgs} {st st' : State} {h : Hist}
    (hr : Runs (Core.open rt a st) (.ok (1, st')) h) {env : IoEnv} (henv : st'.env = some env)
    (hcmd : env.commandInfo.command ≠ []) (hx : ¬ SessionExempt env)
    (hu : env.commandInfo.runasEuid ≠ noId ∨ rt.euid = 0)
    (hg : env.userInfo.uid = env.commandInfo.runasEuid → env.commandInfo.runasEgid ≠ noId)
    {S : Site} (hS : S.path = sessionPath env) (hSe : S.euid = rt.euid)
    (hSd : ∀ d, SamePath d (PluginOptions.ofMap env.pluginOptions).socketDir → S.isDir d = true)
    {names : Bytes → Bool} {l : List Bustle} (hc : Crowd env S names l) (hl : owns (apart l) = h)
    {w w' : World} (hw : S.bustles names w l = some w') :
    ∃ l1 d fst l2 fd conn l3 reply b l4,
      apart l = l1 ++ .inl ⟨.stat d, some fst⟩ :: (l2 ++ .inl ⟨.accept fd, some conn⟩ :: (l3 ++ .inl reply :: l4)) ∧
      Read1 b conn.fd reply ∧ (b = (Char.toNat 'y').toUInt8 ∨ b = (Char.toNat 'Y').toUInt8) ∧
      ((Vouched env conn.peer ∧ .inr (conn.peer, .connect) ∈ l2) ∨ ∃ c a, .inr (c, a) ∈ l2 ∧ a.Meddles ∧ Insider rt env c) := by
  rw [C73_undisturbed hc.socket hc.dir hc.sessions] at hw
  exact C67_approved hr henv hcmd hx hu hg hS hSe hSd hl hw

/-- C73: nobody approves their own session by starting more sessions: if the processes that are not the plugin's are
all of the invoking user, then as in C67 the session is not accepted, however many others there are. -/
theorem C73_not_alone {rt : Rt} {a : OpenArgs} {st st' : State} {h : Hist}
    (hr : Runs (Core.open rt a st) (.ok (1, st')) h) {env : IoEnv} (henv : st'.env = some env)
    (hcmd : env.commandInfo.command ≠ []) (hx : ¬ SessionExempt env)
    (hu : env.commandInfo.runasEuid ≠ noId ∨ rt.euid = 0)
    (hg : env.userInfo.uid = env.commandInfo.runasEuid → env.commandInfo.runasEgid ≠ noId)
    {S : Site} (hS : S.path = sessionPath env) (hSe : S.euid = rt.euid)
    (hSd : ∀ d, SamePath d (PluginOptions.ofMap env.pluginOptions).socketDir → S.isDir d = true)
    {names : Bytes → Bool} {l : List Bustle} (hc : Crowd env S names l) (hl : owns (apart l) = h)
    {w w' : World} (hw : S.bustles names w l = some w')
    (h0 : env.userInfo.uid ≠ 0) (h1 : env.userInfo.uid ≠ rt.euid)
    (halone : ∀ x ∈ others (apart l), x.1 = ⟨env.userInfo.uid, env.userInfo.gid :: env.userInfo.groups⟩) :
    env.settings.runasGroup ≠ none ∧
      (env.commandInfo.runasEgid = env.userInfo.gid ∨ env.commandInfo.runasEgid ∈ env.userInfo.groups) := by
  rw [C73_undisturbed hc.socket hc.dir hc.sessions] at hw
  exact C67_not_alone hr henv hcmd hx hu hg hS hSe hSd hl hw h0 h1 halone

/-! ### Concrete cases -/

/-- As `otherUserArgs`, in another process. -/
def secondArgs : OpenArgs := { otherUserArgs with
  userInfo := some [b! "cwd=/home/u", b! "egid=0", b! "euid=0", b! "gid=1000", b! "groups=1000,27",
    b! "host=h", b! "pgid=41", b! "pid=43", b! "ppid=40", b! "uid=1000", b! "user=u",
    b! "tty=/dev/pts/0"] }

/-- A whole session of another process. -/
def secondHist (b : OpenArgs) : Hist :=
  (Core.run sampleRt [.open b, .close] Core.init (List.replicate 60 (truly ⟨1001, [1001]⟩))).2.1

/-- The session of user 1000, which user 1001 approves, with the given session of another process after the first `k`
events. -/
def crowded (b : OpenArgs) (k : Nat) : List Bustle :=
  let l := woven otherUserArgs ⟨1001, [1001]⟩ 9 [(⟨1001, [1001]⟩, .connect)]
  (l.take k).map .inl ++ (secondHist b).map (fun e => .inr (0, e)) ++ (l.drop k).map .inl

def crowdSite : Site :=
  { sampleSite with isDir := fun p => decide (Path.components p = Path.components (b! "/var/run/sudo_pair")) }

def crowdNames : Bytes → Bool := fun p => decide (Path.components p = Path.components (b! "/var/run/sudo_pair/1000.42.sock"))

theorem apart_crowded (b k) : apart (crowded b k) = woven otherUserArgs ⟨1001, [1001]⟩ 9 [(⟨1001, [1001]⟩, .connect)] := by
  have h1 : ∀ h : List Happening, apart (h.map .inl) = h := by intro h; induction h <;> simp_all [apart]
  have h2 : ∀ h : Hist, apart (h.map fun e => .inr (0, e)) = [] := by intro h; induction h <;> simp_all [apart]
  have h3 : ∀ a b : List Bustle, apart (a ++ b) = apart a ++ apart b := fun _ _ => List.filterMap_append
  simp only [crowded, h3, h1, h2, List.append_nil, List.take_append_drop]

theorem ofProcess_crowded (b k i) : ofProcess i (crowded b k) = if i = 0 then secondHist b else [] := by
  have h1 : ∀ h : List Happening, ofProcess i (h.map .inl) = [] := by intro h; induction h <;> simp_all [ofProcess]
  have h2 : ∀ h : Hist, ofProcess i (h.map fun e => .inr (0, e)) = if i = 0 then h else [] := by
    intro h
    induction h with
    | nil => simp [ofProcess]
    | cons e h ih =>
      by_cases hi : i = 0
      · subst hi; simp [ofProcess] at ih ⊢; exact ih
      · simp only [if_neg hi] at ih ⊢
        simp [ofProcess, Ne.symm hi]
  have h3 : ∀ a b : List Bustle, ofProcess i (a ++ b) = ofProcess i a ++ ofProcess i b := fun _ _ => List.filterMap_append
  simp only [crowded, h3, h1, h2, List.append_nil, List.nil_append]

/-- The other session touches its own socket in the same directory, and everything goes on. -/
example : (secondHist secondArgs).any (fun e => match e with
      | ⟨.bind p, .bound _⟩ => p == b! "/var/run/sudo_pair/1000.43.sock" | _ => false) = true ∧
    (crowdSite.bustles crowdNames sampleWorld (crowded secondArgs 8)).isSome = true := by decide +kernel

/-- It has to be a session of another uid or pid: the plugin would put its own socket in the place. -/
example : ((crowdSite.bustles crowdNames sampleWorld ((crowded secondArgs 8).take 20)).map (·.slot)) = some .ours ∧
    ((crowdSite.bustles crowdNames sampleWorld ((crowded otherUserArgs 8).take 20)).map (·.slot)) ≠ some .ours := by
  decide +kernel

/-- The hypotheses of C73 about the others are met. -/
theorem crowd_of {env : IoEnv} (hn : IoEnv.new sampleRt otherUserArgs = some (.ok env)) {l : List Bustle}
    (hl : ∀ i, ofProcess i l = if i = 0 then secondHist secondArgs else []) : Crowd env crowdSite crowdNames l := by
  have h5 : ((IoEnv.new sampleRt otherUserArgs).bind Except.toOption).map (fun env => (env.userInfo.uid, env.userInfo.pid)) =
      some (1000, 42) := by decide +kernel
  rw [hn] at h5
  simp only [Except.toOption, Option.bind_some, Option.map_some, Option.some.injEq, Prod.mk.injEq] at h5
  have h6 : ((IoEnv.new sampleRt secondArgs).bind Except.toOption).map (fun env => env.userInfo.pid) = some 43 := by
    decide +kernel
  refine ⟨fun i => ?_, fun p hp => ?_, fun p hp uid pid hl => ?_⟩
  · rw [hl, h5.1, h5.2]
    by_cases hi : i = 0
    · rw [if_pos hi]
      rcases hc : Core.run sampleRt [.open secondArgs, .close] Core.init (List.replicate 60 (truly ⟨1001, [1001]⟩)) with
        ⟨o, h, s⟩
      refine ⟨sampleRt, _, o, by unfold secondHist; rw [hc]; exact runs_of hc, ?_⟩
      intro a ha env2 h7
      simp only [List.mem_cons, Call.open.injEq, reduceCtorEq, List.not_mem_nil, or_false] at ha
      subst ha
      rw [h7] at h6
      simp only [Except.toOption, Option.bind_some, Option.map_some, Option.some.injEq] at h6
      rw [h6]; simp
    · rw [if_neg hi]
      exact ⟨sampleRt, [], _, ⟨[], rfl, rfl⟩, by simp⟩
  · rw [h5.1, h5.2, lastName_components, of_decide_eq_true hp]
    decide +kernel
  · rw [lastName_components, of_decide_eq_true hp] at hl
    have h8 : (Path.components (b! "/var/run/sudo_pair")).getLast? = some (.normal (b! "sudo_pair")) := by decide +kernel
    rw [h8] at hl
    simp only [Option.some.injEq, Comp.normal.injEq] at hl
    obtain ⟨d, h9, h10⟩ := socketName_head uid pid
    have h11 : (b! "sudo_pair").head? = some d := by rw [hl]; exact h9
    have h12 : d = 115 := by simpa [eq_comm] using h11
    subst h12
    simp [IsDigit] at h10

theorem crowded_crowd {env : IoEnv} (hn : IoEnv.new sampleRt otherUserArgs = some (.ok env)) (k : Nat) :
    Crowd env crowdSite crowdNames (crowded secondArgs k) := crowd_of hn (ofProcess_crowded _ _)

/-- And so are the others: a session is approved while the same user has another. -/
example : ∃ env st' h l w', Runs (Core.open sampleRt otherUserArgs Core.init) (.ok (1, st')) h ∧
    st'.env = some env ∧ env.commandInfo.command ≠ [] ∧ ¬ SessionExempt env ∧
    env.commandInfo.runasEuid ≠ noId ∧ env.userInfo.uid ≠ env.commandInfo.runasEuid ∧
    crowdSite.path = sessionPath env ∧ crowdSite.euid = sampleRt.euid ∧
    (∀ d, SamePath d (PluginOptions.ofMap env.pluginOptions).socketDir → crowdSite.isDir d = true) ∧
    Crowd env crowdSite crowdNames l ∧ owns (apart l) = h ∧ crowdSite.bustles crowdNames sampleWorld l = some w' ∧
    others (apart l) = [(⟨1001, [1001]⟩, .connect)] ∧ (ofProcess 0 l).length = 35 ∧
    env.userInfo.uid ≠ 0 ∧ env.userInfo.uid ≠ sampleRt.euid := by
  have h1 : retOf (Core.open sampleRt otherUserArgs Core.init (List.replicate 60 (truly ⟨1001, [1001]⟩))).1 = some 1 := by
    decide +kernel
  have hw : (crowdSite.bustles crowdNames sampleWorld (crowded secondArgs 8)).isSome = true := by decide +kernel
  have ho : others (apart (crowded secondArgs 8)) = [(⟨1001, [1001]⟩, .connect)] := by decide +kernel
  have hp : (ofProcess 0 (crowded secondArgs 8)).length = 35 := by decide +kernel
  have hl := owns_woven otherUserArgs ⟨1001, [1001]⟩ 9 [(⟨1001, [1001]⟩, .connect)]
  rw [← apart_crowded secondArgs 8] at hl
  obtain ⟨w', hw⟩ := Option.isSome_iff_exists.1 hw
  rcases hc : Core.open sampleRt otherUserArgs Core.init (List.replicate 60 (truly ⟨1001, [1001]⟩)) with
    ⟨⟨r, st'⟩ | _ | _, h, s⟩ <;> rw [hc] at h1 hl <;> simp only [retOf, Option.some.injEq, reduceCtorEq] at h1
  subst h1
  have h5 : ((IoEnv.new sampleRt otherUserArgs).bind Except.toOption).map
      (fun env => (env.commandInfo.command, (Pair.ofEnv env).isExempt false, (Pair.ofEnv env).socketPath,
        env.commandInfo.runasEuid, env.userInfo.uid)) =
      some (b! "/bin/ls", some false, b! "/var/run/sudo_pair/1000.42.sock", 1001, 1000) := by decide +kernel
  have h11 : ((IoEnv.new sampleRt otherUserArgs).bind Except.toOption).map
      (fun env => (PluginOptions.ofMap env.pluginOptions).socketDir) = some (b! "/var/run/sudo_pair") := by decide +kernel
  rcases hn : IoEnv.new sampleRt otherUserArgs with _ | (e | env) <;> rw [hn] at h5 h11
  · simp at h5
  · simp [Except.toOption] at h5
  · simp only [Except.toOption, Option.bind_some, Option.map_some, Option.some.injEq, Prod.mk.injEq] at h5 h11
    obtain ⟨h6, h7, h8, h9, h10⟩ := h5
    refine ⟨env, st', h, _, w', runs_of hc, open_env (runs_of hc) hn, by rw [h6]; simp, fun hx => ?_, by rw [h9]; decide,
      by rw [h9, h10]; decide, h8.symm.trans (sessionPath_eq env), rfl, fun d hd => ?_, crowded_crowd hn 8, hl, hw, ho, hp, by rw [h10]; decide,
      by rw [h10]; decide⟩
    · have := (C04_release (Pair.ofEnv env)).2 hx
      rw [h7] at this; simp at this
    · rw [h11] at hd
      exact decide_eq_true (Path.components_same hd)

end SudoPair
