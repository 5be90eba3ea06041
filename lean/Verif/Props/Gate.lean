import Verif.Lemmas.Approve
import Verif.Lemmas.Scenario
import Verif.Spec.Input
import Verif.Props.Options
import Verif.Props.Version
/-
The `open` callback: C01, C03, C05 (open), C07, C08 (open), C09, C10, C25.
-/
namespace SudoPair
open Spec

/-- The configured plugin options of a session. -/
abbrev optionsOf (env : IoEnv) : PluginOptions := .ofMap env.pluginOptions

/-- The session of `env` needs no pair. -/
abbrev SessionExempt (env : IoEnv) : Prop := Exempt env (optionsOf env)

/-- The documented place of the socket of the session of `env`: the file `<uid>.<pid>.sock` in `socket_dir`. -/
abbrev sessionPath (env : IoEnv) : Bytes :=
  socketFile (optionsOf env).socketDir env.userInfo.uid env.userInfo.pid

/-- The model's path is the documented one. -/
theorem sessionPath_eq (env : IoEnv) : (Pair.ofEnv env).socketPath = sessionPath env := socketPath_file _

/-- The session of `env` was approved during `h` by the peer connected as `fd`. -/
abbrev ApprovedSession (env : IoEnv) (fd : Nat) (h : Hist) : Prop :=
  Approved (sessionPath env) (optionsOf env).pairPromptPath builtinPairPrompt
    (promptVars (Pair.ofEnv env)) fd h

theorem M.bind_ok {α β : Type} {m : M α} {f : α → M β} {s s' : Sched} {x : α} {h : Hist}
    (hm : m s = (.ok x, h, s')) :
    (m >>= f) s = ((f x s').1, h ++ (f x s').2.1, (f x s').2.2) := by
  rw [M.bind_def, hm]

theorem not_exempt_of {env : IoEnv} {debug : Bool} (h : ¬ SessionExempt env) :
    (Pair.ofEnv env).isExempt debug ≠ some true := by
  intro hx
  exact h ((C04_rule debug (Pair.ofEnv env) true hx).1 rfl)

theorem exempt_of {env : IoEnv} {debug : Bool} (h : (Pair.ofEnv env).isExempt debug = some true) :
    SessionExempt env := (C04_rule debug (Pair.ofEnv env) true h).1 rfl

/-- A plugin object that was created for a session that is not exempt was approved. -/
theorem approvedSession_of {rt env q h} (hx : ¬ SessionExempt env)
    (hp : PairOpen rt (Pair.ofEnv env) (.ok (.ok q)) h) :
    ∃ fd, q = { Pair.ofEnv env with socket := some fd } ∧ ApprovedSession env fd h := by
  obtain ⟨h0, a, lfd, conn, b, r, h1, e, h2, c, rfl, hq, hq0, hb, ha1, hb1, hw, hd, hr, hc, _⟩ :=
    pairOpen_approved (not_exempt_of hx) hp
  refine ⟨conn.fd, hq, h0 ++ a, b ++ (⟨.readFile (optionsOf env).pairPromptPath, r⟩ : Ev) :: h1, h2, lfd, conn,
    e, c, r.getD defaultPairPrompt, (Pair.ofEnv env).promptText r, ?_, rfl, by rw [← sessionPath_eq]; simp [hb],
    ?_, ?_, ?_, ?_, ?_, hr, ?_⟩
  · simp [Pair.ofEnv]
  · exact List.forall_mem_append.2 ⟨fun e he => not_read_of_quiet (hq0 e he),
      fun e he => not_read_of_setup (ha1 e he).1⟩
  · refine List.forall_mem_append.2 ⟨fun e he => not_read_of_setup (hb1 e he).1,
      List.forall_mem_cons.2 ⟨?_, fun e he => not_read_of_write (hw e he).1⟩⟩
    rintro fd ⟨len, h⟩; simp at h
  · cases r with
    | none => exact Or.inr ⟨by simp, rfl⟩
    | some t => exact Or.inl (by simp)
  · exact (C28_variables (Pair.ofEnv env) _ _).1 rfl
  · rw [delivered_append, delivered_of_sent (fun e he => sent_setup (hb1 e he).1 _), List.nil_append]
    rw [← hd]; rfl
  · rcases hc with rfl | rfl <;> simp

/-! ### C01 -/

/-- C01 (partial): if `open` returns 1 for a session (the environment now stored) that is not exempt,
then a peer connected to the session's approval socket, received the complete expanded pair prompt,
and the first thing read was its `y` or `Y`.

Missing from the full statement: sessions whose command path is empty after decoding.  The plugin
treats them like `sudo -V`, and it decodes a command that is missing or is not UTF-8 to the empty
path; for those the statement is false, `C01_counterexample`. -/
theorem C01_approval_partial (rt : Rt) (a : OpenArgs) (st st' : State) (env : IoEnv) (h : Hist)
    (hr : Runs (Core.open rt a st) (.ok (1, st')) h) (henv : st'.env = some env)
    (hcmd : env.commandInfo.command ≠ []) (hx : ¬ SessionExempt env) :
    ∃ fd, ApprovedSession env fd h := by
  generalize ho : Out.ok ((1 : Int), st') = o at hr
  cases coreOpen_runs hr with
  | empty h1 h2 =>
    simp only [Out.ok.injEq, Prod.mk.injEq] at ho
    obtain ⟨_, rfl⟩ := ho
    simp only [Option.some.injEq] at henv
    subst henv; exact absurd h2 hcmd
  | accepted h1 h2 h3 h4 =>
    simp only [Out.ok.injEq, Prod.mk.injEq] at ho
    obtain ⟨_, rfl⟩ := ho
    simp only [Option.some.injEq] at henv
    subst henv
    obtain ⟨fd, _, h5⟩ := approvedSession_of hx h3
    exact ⟨fd, h5⟩
  | again h1 h2 h3 h4 h5 =>
    simp only [Out.ok.injEq, Prod.mk.injEq] at ho
    obtain ⟨_, rfl⟩ := ho
    simp only [Option.some.injEq] at henv
    subst henv
    obtain ⟨fd, _, b1, b2, b3, l, c, e, x, t, pr, rfl, h6⟩ := approvedSession_of hx h3
    exact ⟨fd, b1, b2, b3 ++ _, l, c, e, x, t, pr, by simp; rfl, h6⟩
  | _ => simp at ho

/-- C01 in terms of sudo's arguments, for the first `open` of a process. -/
theorem C01_first_open_partial (rt : Rt) (a : OpenArgs) (st' : State) (h : Hist)
    (hr : Runs (Core.open rt a Core.init) (.ok (1, st')) h) :
    ∃ env, IoEnv.new rt a = some (.ok env) ∧ st'.env = some env ∧
      (env.commandInfo.command ≠ [] → ¬ SessionExempt env → ∃ fd, ApprovedSession env fd h) := by
  have key : ∃ env, IoEnv.new rt a = some (.ok env) ∧ st'.env = some env := by
    generalize ho : Out.ok ((1 : Int), st') = o at hr
    cases coreOpen_runs hr with
    | empty h1 h2 =>
      simp only [Out.ok.injEq, Prod.mk.injEq] at ho; obtain ⟨_, rfl⟩ := ho; exact ⟨_, h1, rfl⟩
    | accepted h1 h2 h3 h4 =>
      simp only [Out.ok.injEq, Prod.mk.injEq] at ho; obtain ⟨_, rfl⟩ := ho; exact ⟨_, h1, rfl⟩
    | again h1 h2 h3 h4 h5 => simp [Core.init] at h4
    | _ => simp at ho
  obtain ⟨env, h1, h2⟩ := key
  exact ⟨env, h1, h2, C01_approval_partial rt a _ st' env h hr h2⟩

/-- Non-vacuity: with a cooperative system and a pair who answers `y`, the sample session (not exempt,
command `/bin/ls`) is approved. -/
example : ∃ st' h env, Runs (Core.open sampleRt sampleArgs Core.init) (.ok (1, st')) h ∧
    st'.env = some env ∧ env.commandInfo.command ≠ [] ∧ ¬ SessionExempt env := by
  have h1 : retOf (Core.open sampleRt sampleArgs Core.init (List.replicate 40 (coop 121))).1 = some 1 := by
    decide +kernel
  rcases hc : Core.open sampleRt sampleArgs Core.init (List.replicate 40 (coop 121)) with
    ⟨⟨r, st'⟩ | _ | _, h, s⟩ <;> rw [hc] at h1 <;> simp only [retOf, Option.some.injEq, reduceCtorEq] at h1
  subst h1
  obtain ⟨env, h2, h3, h4⟩ := C01_first_open_partial sampleRt sampleArgs st' h (runs_of hc)
  refine ⟨st', h, env, runs_of hc, h3, ?_⟩
  have h5 : ((IoEnv.new sampleRt sampleArgs).bind Except.toOption).map
      (fun env => (env.commandInfo.command, (Pair.ofEnv env).isExempt false)) =
        some (b! "/bin/ls", some false) := by decide +kernel
  rw [h2] at h5
  simp only [Except.toOption, Option.bind_some, Option.map_some, Option.some.injEq, Prod.mk.injEq] at h5
  refine ⟨by rw [h5.1]; simp, fun hx => ?_⟩
  have h6 := (C04_release (Pair.ofEnv env)).2 hx
  rw [h5.2] at h6; simp at h6

/-- The sample session with a command whose name is not UTF-8. -/
def badCommandArgs : OpenArgs := { sampleArgs with
  commandInfo := some [b! "command=/bin/" ++ [0xff], b! "runas_uid=0", b! "runas_gid=0",
    b! "runas_groups=0", b! "iolog_stdout=true", b! "iolog_stderr=true", b! "iolog_ttyout=true"] }

/-- C01 is false without the restriction: for the command `/bin/\xff` run as root by user 1000 (not
exempt), `open` returns 1 without any interaction at all. -/
theorem C01_counterexample : ∃ (rt : Rt) (a : OpenArgs) (st' : State) (env : IoEnv),
    (b! "command=/bin/" ++ [0xff]) ∈ a.commandInfo.getD [] ∧
    Runs (Core.open rt a Core.init) (.ok (1, st')) [] ∧ st'.env = some env ∧ ¬ SessionExempt env := by
  have h1 : (retOf (Core.open sampleRt badCommandArgs Core.init []).1,
      (Core.open sampleRt badCommandArgs Core.init []).2.1.length) = (some 1, 0) := by decide +kernel
  rcases hc : Core.open sampleRt badCommandArgs Core.init [] with
    ⟨⟨r, st'⟩ | _ | _, h, s⟩ <;> rw [hc] at h1 <;>
    simp only [retOf, Option.some.injEq, reduceCtorEq, Prod.mk.injEq, false_and] at h1
  obtain ⟨rfl, h2⟩ := h1
  have : h = [] := by simpa using h2
  subst this
  obtain ⟨env, h2, h3, h4⟩ := C01_first_open_partial sampleRt badCommandArgs st' [] (runs_of hc)
  refine ⟨sampleRt, badCommandArgs, st', env, by simp [badCommandArgs], runs_of hc, h3, fun hx => ?_⟩
  have h5 : ((IoEnv.new sampleRt badCommandArgs).bind Except.toOption).map
      (fun env => (Pair.ofEnv env).isExempt false) = some (some false) := by decide +kernel
  rw [h2] at h5
  simp only [Except.toOption, Option.bind_some, Option.map_some, Option.some.injEq] at h5
  have h6 := (C04_release (Pair.ofEnv env)).2 hx
  rw [h5] at h6; simp at h6

/-! ### C08 (open) -/

/-- C08: `open` never lets a panic escape, and if it returns it returns 1 or -1. -/
theorem C08_open (rt : Rt) (a : OpenArgs) (st : State) (o : Out (Int × State)) (h : Hist)
    (hr : Runs (Core.open rt a st) o h) :
    o = .killed ∨ ∃ r st', o = .ok (r, st') ∧ (r = 1 ∨ r = -1) := by
  cases coreOpen_runs hr <;> simp

/-- C08: a panic while the arguments are decoded makes `open` return -1. -/
theorem C08_open_env_panic (rt : Rt) (a : OpenArgs) (st : State) (s s' : Sched) (h : Hist)
    (hp : Core.makeEnv rt a s = (.panic, h, s')) :
    Core.open rt a st s = (.ok (-1, st), h, s') := by
  unfold Core.open
  rw [M.bind_def]
  simp only [M.catchUnwind, hp]
  show (_, h ++ [], s') = _
  simp; rfl

/-- C08: a panic inside the plugin's `open` makes the callback return -1. -/
theorem C08_open_plugin_panic (rt : Rt) (a : OpenArgs) (st : State) (env : IoEnv) (s s' : Sched)
    (h : Hist) (he : IoEnv.new rt a = some (.ok env))
    (hp : Core.makePlugin rt a.hasPrintf (st.env.getD env) s = (.panic, h, s')) :
    ∃ st', Core.open rt a st s = (.ok (-1, st'), h, s') ∧ st'.plugin = st.plugin := by
  refine ⟨⟨some (st.env.getD env), st.plugin⟩, ?_, rfl⟩
  have hm : Core.makeEnv rt a s = (.ok (.ok env), [], s) := by
    unfold Core.makeEnv; rw [he]; rfl
  have hc : M.catchUnwind (Core.makePlugin rt a.hasPrintf (st.env.getD env)) s = (.ok none, h, s') := by
    simp only [M.catchUnwind, hp]
  have hm' : M.catchUnwind (Core.makeEnv rt a) s = (.ok (some (.ok env)), [], s) := by
    simp only [M.catchUnwind, hm]
  have hrest : ∀ (f : Option (Except Int Pair) → M (Int × State)),
      f none = pure (-1, ⟨some (st.env.getD env), st.plugin⟩) →
      (M.catchUnwind (Core.makePlugin rt a.hasPrintf (st.env.getD env)) >>= f) s =
      (.ok (-1, ⟨some (st.env.getD env), st.plugin⟩), h, s') := by
    intro f hf
    rw [M.bind_ok hc, hf]
    show (_, h ++ [], s') = _
    simp; rfl
  unfold Core.open
  rw [M.bind_ok hm']
  simp only
  rw [hrest _ rfl]
  simp

/-- Non-vacuity: both kinds of panic happen (a bare address in `network_addrs`; a listener descriptor
beyond `FD_SETSIZE`). -/
example :
    panics (Core.makeEnv { sampleRt with parseIp := fun s => some s }
      { sampleArgs with settings := some [b! "plugin_dir=/p", b! "plugin_path=/p/sudo_pair.so",
        b! "progname=sudo", b! "network_addrs=127.0.0.1"] } []).1 ∧
    (∃ env, IoEnv.new { sampleRt with fdSetSize := 7 } sampleArgs = some (.ok env) ∧
      panics (Core.makePlugin { sampleRt with fdSetSize := 7 } true env
        (List.replicate 40 (coop 121))).1) := by
  refine ⟨by decide +kernel, ?_⟩
  have h : ((IoEnv.new { sampleRt with fdSetSize := 7 } sampleArgs).bind Except.toOption).map
      (fun env => panics (Core.makePlugin { sampleRt with fdSetSize := 7 } true env
        (List.replicate 40 (coop 121))).1) = some true := by decide +kernel
  rcases hn : IoEnv.new { sampleRt with fdSetSize := 7 } sampleArgs with _ | (e | env) <;> rw [hn] at h
  · simp at h
  · simp [Except.toOption] at h
  · exact ⟨env, rfl, by simpa [Except.toOption] using h⟩

/-! ### C03 -/

/-- C03: whatever else happens, if `open` returns and anything was read from anybody that was not
exactly the single byte `y` or `Y`, it returns -1.  This covers every other byte, end of file, read
errors and interrupted reads. -/
theorem C03_reply (rt : Rt) (a : OpenArgs) (st st' : State) (r : Int) (h : Hist)
    (hr : Runs (Core.open rt a st) (.ok (r, st')) h) (e : Ev) (fd : Nat) (he : e ∈ h)
    (hrd : IsRead fd e) (hy : ¬ Read1 (Char.toNat 'y').toUInt8 fd e)
    (hY : ¬ Read1 (Char.toNat 'Y').toUInt8 fd e) : r = -1 := by
  have key : ∀ {p q h'}, PairOpen rt p (.ok (.ok q)) h' → e ∈ h' → False := by
    intro p q h' hp he
    by_cases hx : p.isExempt rt.debug = some true
    · cases hp with
      | exempt _ => simp at he
      | approved hx' => rw [hx] at hx'; simp at hx'
    · obtain ⟨h0, a, lfd, conn, b, r, h1, e', h2, c, rfl, hq, hq0, hb, ha1, hb1, hw, hd, hr, hc, hw2⟩ :=
        pairOpen_approved hx hp
      have hne : ∀ x, ¬ (e = x ∧ ¬ IsRead fd x) := fun x hx => hx.2 (hx.1 ▸ hrd)
      simp only [List.mem_append, List.mem_cons] at he
      rcases he with he | he | he | he | he | he | he | he
      · exact not_read_of_quiet (hq0 e he) fd hrd
      · exact not_read_of_setup (ha1 e he).1 fd hrd
      · subst he; obtain ⟨len, h⟩ := hrd; simp at h
      · exact not_read_of_setup (hb1 e he).1 fd hrd
      · subst he; obtain ⟨len, h⟩ := hrd; simp at h
      · exact not_read_of_write (hw e he).1 fd hrd
      · subst he
        have hfd : conn.fd = fd := by
          rcases e with ⟨ec, er⟩
          obtain ⟨len, h⟩ := hrd
          simp only at h; subst h
          cases er with
          | data bs hl => exact hr.1.symm
          | intr => exact hr.elim
          | fail => exact hr.elim
        rw [hfd] at hr
        rcases hc with rfl | rfl
        · exact hy hr
        · exact hY hr
      · exact not_read_of_write (hw2 e he) fd hrd
  generalize ho : Out.ok (r, st') = o at hr
  cases coreOpen_runs hr with
  | empty => simp at he
  | accepted h1 h2 h3 h4 => exact (key h3 he).elim
  | again h1 h2 h3 h4 h5 =>
    rcases List.mem_append.1 he with he | he
    · exact (key h3 he).elim
    · exfalso
      rcases drop_runs h5 with ⟨h, _⟩ | ⟨_, _, h⟩ | ⟨_, _, _, _, h⟩
      · simp at h
      · rw [h] at he; simp at he
      · rw [h] at he; simp only [List.mem_singleton] at he
        subst he; obtain ⟨len, h⟩ := hrd; simp at h
  | _ => simp_all

/-- C03: if any step of the handshake fails before a reply was read — `stat`, `bind`, `chown`,
`chmod`, `select`, `accept`, `sigaction`, or a write of the prompt — then `open`, if it returns,
returns -1. -/
theorem C03_failure (rt : Rt) (a : OpenArgs) (st st' : State) (r : Int) (h h1 h2 : Hist) (e : Ev)
    (hr : Runs (Core.open rt a st) (.ok (r, st')) h) (hh : h = h1 ++ e :: h2) (hf : Fails e)
    (hnr : ∀ x ∈ h1, ∀ fd, ¬ IsRead fd x) : r = -1 := by
  have key : ∀ {p q h' t}, PairOpen rt p (.ok (.ok q)) h' → h' ++ t = h1 ++ e :: h2 →
      (∀ x ∈ t, ¬ Fails x) → False := by
    intro p q h' t hp he ht
    by_cases hx : p.isExempt rt.debug = some true
    · cases hp with
      | exempt _ => exact ht e (by simp at he; rw [he]; simp) hf
      | approved hx' => rw [hx] at hx'; simp at hx'
    · obtain ⟨h0, a, lfd, conn, b, r, g1, e', g2, c, rfl, hq, hq0, hb, ha1, hb1, hw, hd, hr, hc, hw2⟩ :=
        pairOpen_approved hx hp
      have hsp : (h0 ++ (a ++ (⟨.accept lfd, some conn⟩ : Ev) :: (b ++
        (⟨.readFile p.options.pairPromptPath, r⟩ : Ev) :: g1))) ++ e' :: (g2 ++ t) = h1 ++ e :: h2 := by
        rw [← he]; simp
      have hread : ∃ fd, IsRead fd e' := by
        rcases e' with ⟨ec, er⟩
        cases ec <;> first | exact hr.elim | exact ⟨_, _, rfl⟩
      rcases split_pos hsp with he | he | he
      · simp only [List.mem_append, List.mem_cons] at he
        rcases he with he | he | he | he | he | he
        · exact not_fails_of_quiet (hq0 e he) hf
        · exact (ha1 e he).2 hf
        · subst he; simp [Fails] at hf
        · exact (hb1 e he).2 hf
        · subst he; simp [Fails] at hf
        · exact (hw e he).2 hf
      · subst he
        rcases e with ⟨ec, er⟩
        cases ec <;> first | exact hr.elim | exact hf
      · obtain ⟨fd, hfd⟩ := hread
        exact hnr _ he fd hfd
  generalize ho : Out.ok (r, st') = o at hr
  cases coreOpen_runs hr with
  | empty => simp at hh
  | accepted h1' h2' h3 h4 => exact (key (t := []) h3 (by simpa using hh) (by simp)).elim
  | again h1' h2' h3 h4 h5 =>
    refine (key h3 hh ?_).elim
    rcases drop_runs h5 with ⟨h, _⟩ | ⟨_, _, rfl⟩ | ⟨_, _, _, _, rfl⟩
    · simp at h
    · simp
    · simp [Fails]
  | _ => simp_all

/-- C03: a session that needs a pair and whose handshake ends before a reply was read is refused. -/
theorem C03_no_reply (rt : Rt) (a : OpenArgs) (st st' : State) (env : IoEnv) (r : Int) (h : Hist)
    (hr : Runs (Core.open rt a st) (.ok (r, st')) h) (henv : st'.env = some env)
    (hcmd : env.commandInfo.command ≠ []) (hx : ¬ SessionExempt env)
    (hnr : ∀ e ∈ h, ∀ fd, ¬ IsRead fd e) : r = -1 := by
  rcases C08_open _ _ _ _ _ hr with h1 | ⟨r', st'', h1, h2⟩
  · simp at h1
  · simp only [Out.ok.injEq, Prod.mk.injEq] at h1
    obtain ⟨rfl, rfl⟩ := h1
    rcases h2 with rfl | rfl
    · obtain ⟨fd, b1, b2, b3, l, c, e, x, t, pr, rfl, h3, h4, h5, h6, h7, h8, h9, h10, h11⟩ :=
        C01_approval_partial rt a st st' env h hr henv hcmd hx
      exfalso
      have : ∃ fd, IsRead fd e := by
        rcases e with ⟨ec, er⟩
        cases ec <;> first | exact h10.elim | exact ⟨_, _, rfl⟩
      obtain ⟨fd', hfd'⟩ := this
      exact hnr e (by simp) fd' hfd'
    · rfl

/-- A pair who interrupts the read. -/
def intrRead : Answer
  | .sockRead _ _ => .intr
  | c => coop 121 c

/-- A system on which `chown` fails. -/
def noChown : Answer
  | .chown _ _ _ => false
  | c => coop 121 c

/-- Non-vacuity: `n`, an interrupted read, and a failing `chown` are reached, and refused. -/
example : retOf (Core.open sampleRt sampleArgs Core.init (List.replicate 60 (coop 110))).1 = some (-1) ∧
    retOf (Core.open sampleRt sampleArgs Core.init (List.replicate 60 intrRead)).1 = some (-1) ∧
    retOf (Core.open sampleRt sampleArgs Core.init (List.replicate 40 noChown)).1 = some (-1) := by decide +kernel

/-! ### C05 (open) -/

/-- An `open` that the decision exempts. -/
theorem open_of_exempt {rt : Rt} {a : OpenArgs} {st : State} {env0 : IoEnv} {o : Out (Int × State)} {h : Hist}
    (hnew : IoEnv.new rt a = some (.ok env0)) (hst : st.plugin = none)
    (hx1 : (Pair.ofEnv (effEnv st env0)).isExempt rt.debug = some true)
    (hr : Runs (Core.open rt a st) o h) :
    h = [] ∧ ∃ st', o = .ok (1, st') ∧ st'.env = some (effEnv st env0) ∧
      ((effEnv st env0).commandInfo.command ≠ [] → st'.plugin = some (Pair.ofEnv (effEnv st env0))) := by
  have key : ∀ {o' h'}, PairOpen rt (Pair.ofEnv (effEnv st env0)) o' h' →
      o' = .ok (.ok (Pair.ofEnv (effEnv st env0))) ∧ h' = [] := by
    intro o' h' hp
    cases hp <;> simp_all
  cases coreOpen_runs hr with
  | envPanic h1 => rw [hnew] at h1; simp at h1
  | envErr h1 => rw [hnew] at h1; simp at h1
  | envKilled h1 => rw [hnew] at h1; simp at h1
  | empty h1 h2 =>
    rw [hnew] at h1; simp only [Option.some.injEq, Except.ok.injEq] at h1; subst h1
    exact ⟨rfl, _, rfl, rfl, fun h => absurd h2 h⟩
  | panic h1 h2 h3 =>
    rw [hnew] at h1; simp only [Option.some.injEq, Except.ok.injEq] at h1; subst h1
    have := (key h3).1; simp at this
  | killed h1 h2 h3 =>
    rw [hnew] at h1; simp only [Option.some.injEq, Except.ok.injEq] at h1; subst h1
    have := (key h3).1; simp at this
  | refused h1 h2 h3 =>
    rw [hnew] at h1; simp only [Option.some.injEq, Except.ok.injEq] at h1; subst h1
    have := (key h3).1; simp at this
  | refusedKilled h1 h2 h3 =>
    rw [hnew] at h1; simp only [Option.some.injEq, Except.ok.injEq] at h1; subst h1
    have := (key h3).1; simp at this
  | accepted h1 h2 h3 h4 =>
    rw [hnew] at h1; simp only [Option.some.injEq, Except.ok.injEq] at h1; subst h1
    obtain ⟨h5, h6⟩ := key h3
    simp only [Out.ok.injEq, Except.ok.injEq] at h5
    subst h5
    exact ⟨h6, _, rfl, rfl, fun _ => rfl⟩
  | again h1 h2 h3 h4 => rw [hst] at h4; simp at h4
  | againKilled h1 h2 h3 h4 => rw [hst] at h4; simp at h4

/-- C05 (open): for an exempt session `open` does not interact with anybody and returns 1.  (In a debug
build this needs that the debug assertions hold, e.g. sudo's consistency rules; otherwise the debug
build refuses, C50.) -/
theorem C05_open (rt : Rt) (a : OpenArgs) (st : State) (env0 : IoEnv) (o : Out (Int × State)) (h : Hist)
    (hnew : IoEnv.new rt a = some (.ok env0)) (hst : st.plugin = none)
    (hx : SessionExempt (effEnv st env0)) (hd : rt.debug = true → Consistent (effEnv st env0))
    (hr : Runs (Core.open rt a st) o h) :
    h = [] ∧ ∃ st', o = .ok (1, st') ∧ st'.env = some (effEnv st env0) ∧
      ((effEnv st env0).commandInfo.command ≠ [] → st'.plugin = some (Pair.ofEnv (effEnv st env0))) := by
  have hx1 : (Pair.ofEnv (effEnv st env0)).isExempt rt.debug = some true := by
    have h0 := (C04_release (Pair.ofEnv (effEnv st env0))).2 hx
    cases hdb : rt.debug with
    | false => exact h0
    | true =>
      have h2 := C50_consistent (Pair.ofEnv (effEnv st env0)) (hd hdb)
      rw [h0] at h2; exact h2
  exact open_of_exempt hnew hst hx1 hr

/-! ### C07 -/

/-- C07 (partial): if the session needs a pair, runs as another user, and the user gave `-g`, then
`open` returns -1 (or the process dies while the error is printed), and there is no interaction
except the error message on sudo's printf: no prompt, no socket.

Missing from the full statement: group names that are not UTF-8, which the plugin ignores
(`C07_counterexample`); `runas_group` is set exactly if sudo passed a UTF-8 value (C52). -/
theorem C07_rejected_partial (rt : Rt) (a : OpenArgs) (st : State) (env0 : IoEnv)
    (o : Out (Int × State)) (h : Hist) (hnew : IoEnv.new rt a = some (.ok env0))
    (hcmd : (effEnv st env0).commandInfo.command ≠ [])
    (hx : ¬ SessionExempt (effEnv st env0))
    (hu : (effEnv st env0).commandInfo.runasEuid ≠ (effEnv st env0).userInfo.uid)
    (hg : (effEnv st env0).settings.runasGroup ≠ none)
    (hr : Runs (Core.open rt a st) o h) :
    (o = .killed ∨ ∃ st', o = .ok (-1, st') ∧ st'.plugin = st.plugin) ∧
    ∀ e ∈ h, ∃ level fmt, e.call = .printf level fmt := by
  have hb : (Pair.ofEnv (effEnv st env0)).toUserAndGroup = true := by
    simp only [Pair.toUserAndGroup, Pair.toUser, Pair.toExplicitGroup, Pair.ofEnv, Bool.and_eq_true,
      Option.isSome_iff_ne_none]
    exact ⟨decide_eq_true (fun h => hu h.symm), hg⟩
  have hx1 := not_exempt_of (debug := rt.debug) hx
  have key : ∀ {o' h'}, PairOpen rt (Pair.ofEnv (effEnv st env0)) o' h' →
      h' = [] ∧ (o' = .panic ∨ o' = .ok (.error .sudoToUserAndGroup)) := by
    intro o' h' hp
    cases hp <;> simp_all
  have hpr : ∀ {h : Hist}, Prints h → ∀ e ∈ h, ∃ level fmt, e.call = .printf level fmt := by
    intro h hp e he
    have := hp e he
    rcases e with ⟨c, r⟩
    cases c <;> first | exact False.elim this | exact ⟨_, _, rfl⟩
  cases coreOpen_runs hr with
  | envPanic h1 => exact ⟨Or.inr ⟨_, rfl, rfl⟩, by simp⟩
  | envErr h1 h2 => exact ⟨Or.inr ⟨_, rfl, rfl⟩, hpr h2⟩
  | envKilled h1 h2 => exact ⟨Or.inl rfl, hpr h2⟩
  | empty h1 h2 =>
    rw [hnew] at h1; simp only [Option.some.injEq, Except.ok.injEq] at h1; subst h1
    exact absurd h2 hcmd
  | panic h1 h2 h3 =>
    rw [hnew] at h1; simp only [Option.some.injEq, Except.ok.injEq] at h1; subst h1
    refine ⟨Or.inr ⟨_, rfl, rfl⟩, ?_⟩
    rw [(key h3).1]; simp
  | killed h1 h2 h3 =>
    rw [hnew] at h1; simp only [Option.some.injEq, Except.ok.injEq] at h1; subst h1
    have := (key h3).2; simp at this
  | refused h1 h2 h3 h4 =>
    rw [hnew] at h1; simp only [Option.some.injEq, Except.ok.injEq] at h1; subst h1
    refine ⟨Or.inr ⟨_, rfl, rfl⟩, ?_⟩
    rw [(key h3).1]; exact hpr h4
  | refusedKilled h1 h2 h3 h4 =>
    rw [hnew] at h1; simp only [Option.some.injEq, Except.ok.injEq] at h1; subst h1
    refine ⟨Or.inl rfl, ?_⟩
    rw [(key h3).1]; exact hpr h4
  | accepted h1 h2 h3 h4 =>
    rw [hnew] at h1; simp only [Option.some.injEq, Except.ok.injEq] at h1; subst h1
    have := (key h3).2; simp at this
  | again h1 h2 h3 h4 =>
    rw [hnew] at h1; simp only [Option.some.injEq, Except.ok.injEq] at h1; subst h1
    have := (key h3).2; simp at this
  | againKilled h1 h2 h3 h4 =>
    rw [hnew] at h1; simp only [Option.some.injEq, Except.ok.injEq] at h1; subst h1
    have := (key h3).2; simp at this

/-- The sample session with `-g` and the given group name. -/
def groupArgs (g : Bytes) : OpenArgs := { sampleArgs with
  settings := some [b! "plugin_dir=/p", b! "plugin_path=/p/sudo_pair.so", b! "progname=sudo",
    b! "runas_group=" ++ g] }

/-- Whether the history contains a `bind`. -/
def bindsIn (h : Hist) : Bool := h.any fun e => match e.call with | .bind _ => true | _ => false

/-- Non-vacuity of C07: the sample session with `-g wheel` is refused. -/
example : retOf (Core.open sampleRt (groupArgs (b! "wheel")) Core.init (List.replicate 40 (coop 121))).1
    = some (-1) := by decide +kernel

/-- C07 is false for a group name that is not UTF-8: the session with `-g '\xff'` (running as another
user, not exempt) is paired as if `-g` had not been given, and can be approved. -/
theorem C07_counterexample : ∃ (rt : Rt) (a : OpenArgs) (env : IoEnv) (s : Sched),
    (b! "runas_group=" ++ [0xff]) ∈ a.settings.getD [] ∧ IoEnv.new rt a = some (.ok env) ∧
    env.commandInfo.runasEuid ≠ env.userInfo.uid ∧ env.commandInfo.command ≠ [] ∧
    ¬ SessionExempt env ∧ retOf (Core.open rt a Core.init s).1 = some 1 ∧
    bindsIn (Core.open rt a Core.init s).2.1 = true := by
  have h5 : ((IoEnv.new sampleRt (groupArgs [0xff])).bind Except.toOption).map
      (fun env => (env.commandInfo.runasEuid, env.userInfo.uid, env.commandInfo.command,
        (Pair.ofEnv env).isExempt false)) = some (0, 1000, b! "/bin/ls", some false) := by decide +kernel
  rcases hn : IoEnv.new sampleRt (groupArgs [0xff]) with _ | (e | env) <;> rw [hn] at h5
  · simp at h5
  · simp [Except.toOption] at h5
  · simp only [Except.toOption, Option.bind_some, Option.map_some, Option.some.injEq, Prod.mk.injEq] at h5
    obtain ⟨h6, h7, h8, h9⟩ := h5
    refine ⟨sampleRt, groupArgs [0xff], env, List.replicate 40 (coop 121), by simp [groupArgs], hn,
      by rw [h6, h7]; decide, by rw [h8]; simp, fun hx => ?_, by decide +kernel, by decide +kernel⟩
    have h6 := (C04_release (Pair.ofEnv env)).2 hx
    rw [h9] at h6; simp at h6

/-! ### C09, C10 -/

/-- Runs of `open` when the arguments are not accepted. -/
theorem open_not_accepted {rt a st o h} (hn : ∀ env, IoEnv.new rt a ≠ some (.ok env))
    (hr : Runs (Core.open rt a st) o h) :
    (o = .killed ∨ o = .ok (-1, st)) ∧ ∀ e ∈ h, ∃ level fmt, e.call = .printf level fmt := by
  have hpr : ∀ {h : Hist}, Prints h → ∀ e ∈ h, ∃ level fmt, e.call = .printf level fmt := by
    intro h hp e he
    have := hp e he
    rcases e with ⟨c, r⟩
    cases c <;> first | exact False.elim this | exact ⟨_, _, rfl⟩
  cases coreOpen_runs hr with
  | envPanic h1 => exact ⟨Or.inr rfl, by simp⟩
  | envErr h1 h2 => exact ⟨Or.inr rfl, hpr h2⟩
  | envKilled h1 h2 => exact ⟨Or.inl rfl, hpr h2⟩
  | empty h1 => exact absurd h1 (hn _)
  | panic h1 => exact absurd h1 (hn _)
  | killed h1 => exact absurd h1 (hn _)
  | refused h1 => exact absurd h1 (hn _)
  | refusedKilled h1 => exact absurd h1 (hn _)
  | accepted h1 => exact absurd h1 (hn _)
  | again h1 => exact absurd h1 (hn _)
  | againKilled h1 => exact absurd h1 (hn _)

/-- When sudo's arguments are accepted. -/
theorem new_accepts {rt a env} (h : IoEnv.new rt a = some (.ok env)) :
    (∃ v, IoEnv.checkVersion a.version = .ok v) ∧ WellFormedInput a.settings a.userInfo := by
  unfold IoEnv.new at h
  split at h
  · simp at h
  · rename_i v hv
    refine ⟨⟨v, hv⟩, ?_⟩
    split at h
    · simp at h
    · simp at h
    · rename_i settings hs
      split at h
      · simp at h
      · rename_i ui hu
        obtain ⟨h1, h2, h3, _⟩ := (settings_succeeds rt.parseIp a.settings).1 ⟨_, hs⟩
        exact ⟨h1, h2, h3, (C52_user_info_succeeds a.userInfo).1 ⟨_, hu⟩⟩

/-- C09: if any required key is missing or garbled, `open` returns -1, leaves the stored environment
and plugin as they were, and does nothing but print the error. -/
theorem C09_refused (rt : Rt) (a : OpenArgs) (st : State) (o : Out (Int × State)) (h : Hist)
    (hbad : ¬ WellFormedInput a.settings a.userInfo) (hr : Runs (Core.open rt a st) o h) :
    (o = .killed ∨ o = .ok (-1, st)) ∧ ∀ e ∈ h, ∃ level fmt, e.call = .printf level fmt :=
  open_not_accepted (fun _ h => hbad (new_accepts h).2) hr

/-- `C09_accepted`, with the `network_addrs` panic as the model has it. -/
theorem accepted_of (rt : Rt) (a : OpenArgs) (hv : 1 * 65536 + 9 ≤ a.version.toNat)
    (hw : WellFormedInput a.settings a.userInfo)
    (hn : getNetAddrs rt.parseIp (.fromRaw a.settings) ≠ none) :
    ∃ env, IoEnv.new rt a = some (.ok env) := by
  obtain ⟨h1, h2, h3, h4⟩ := hw
  obtain ⟨v, hv⟩ := (C10_check a.version).2 hv
  obtain ⟨settings, hs⟩ := (settings_succeeds rt.parseIp a.settings).2 ⟨h1, h2, h3, hn⟩
  obtain ⟨ui, hu⟩ := (C52_user_info_succeeds a.userInfo).2 h4
  unfold IoEnv.new
  simp only [hv, hs, hu]
  exact ⟨_, rfl⟩

/-- Non-vacuity: the sample without its `user` entry, and with a garbled `uid`. -/
example : ¬ WellFormedInput sampleArgs.settings (some [b! "cwd=/home/u", b! "egid=0", b! "euid=0",
      b! "gid=1000", b! "groups=1000,27", b! "host=h", b! "pgid=41", b! "pid=42", b! "ppid=40",
      b! "uid=1000"]) ∧
    retOf (Core.open sampleRt { sampleArgs with userInfo := some [b! "cwd=/home/u", b! "egid=0",
      b! "euid=0", b! "gid=1000", b! "groups=1000,27", b! "host=h", b! "pgid=41", b! "pid=42",
      b! "ppid=40", b! "uid=0x10", b! "user=u"] } Core.init (List.replicate 40 (coop 121))).1
      = some (-1) := by
  refine ⟨?_, by decide +kernel⟩
  rintro ⟨-, -, -, h⟩
  obtain ⟨ui, hu⟩ := (C52_user_info_succeeds _).2 h
  have hd : (UserInfo.tryFrom (.fromRaw (some [b! "cwd=/home/u", b! "egid=0", b! "euid=0",
      b! "gid=1000", b! "groups=1000,27", b! "host=h", b! "pgid=41", b! "pid=42", b! "ppid=40",
      b! "uid=1000"]))).toOption = none := by decide +kernel
  rw [hu] at hd; simp [Except.toOption] at hd

/-- C10: for an API version below 1.9, `open` returns -1 whatever the other arguments, keeps no
environment, and does nothing but print the error. -/
theorem C10_refused (rt : Rt) (a : OpenArgs) (st : State) (o : Out (Int × State)) (h : Hist)
    (hold : a.version.toNat < 1 * 65536 + 9) (hr : Runs (Core.open rt a st) o h) :
    (o = .killed ∨ o = .ok (-1, st)) ∧ ∀ e ∈ h, ∃ level fmt, e.call = .printf level fmt := by
  refine open_not_accepted (fun _ h => ?_) hr
  have := (C10_check a.version).1 (new_accepts h).1
  omega

/-- Non-vacuity: 1.8 is refused; the sample itself (1.17) is accepted. -/
example : retOf (Core.open sampleRt { sampleArgs with version := 0x10008#32 } Core.init
    (List.replicate 40 (coop 121))).1 = some (-1) ∧
    retOf (Core.open sampleRt { sampleArgs with version := 0x10009#32 } Core.init
    (List.replicate 40 (coop 121))).1 = some 1 := by decide +kernel

/-! ### C25 -/

/-- C25: if `open` returns -1 after a peer connected, that connection has been shut down (after the
last use of it). -/
theorem C25_hangs_up (rt : Rt) (a : OpenArgs) (st st' : State) (h : Hist) (lfd : Nat) (conn : Conn)
    (hr : Runs (Core.open rt a st) (.ok (-1, st')) h)
    (hc : (⟨.accept lfd, some conn⟩ : Ev) ∈ h)  :
    ∃ (h1 h2 : Hist) (b : Bool), h = h1 ++ (⟨.shutdown conn.fd, b⟩ : Ev) :: h2 ∧
      (⟨.accept lfd, some conn⟩ : Ev) ∈ h1 ∧
      ∀ e ∈ h2, ∃ level fmt, e.call = .printf level fmt := by
  have hl : ∀ {p : Pair} {o h}, Runs (p.localPairPrompt p.templateSpec) o h →
      (⟨.accept lfd, some conn⟩ : Ev) ∉ h := fun hl hm => localPairPrompt_quiet _ _ |>.of_runs hl _ hm
  have hpr : ∀ {h : Hist}, Prints h → ∀ e ∈ h, ∃ level fmt, e.call = .printf level fmt := by
    intro h hp e he
    have := hp e he
    rcases e with ⟨c, r⟩
    cases c <;> first | exact False.elim this | exact ⟨_, _, rfl⟩
  have hso : ∀ {p : Pair} {o h}, Connects rt p o h → (⟨.accept lfd, some conn⟩ : Ev) ∈ h →
      o = .ok (some conn) ∨ o = .killed := by
    rintro p o h ⟨mode, _, hs⟩ hm
    exact sockOpen_accept (open'_runs hs) hm
  have key : ∀ {p : Pair} {o h}, PairOpen rt p o h → o = .panic ∨ (∃ e, o = .ok (.error e)) →
      (⟨.accept lfd, some conn⟩ : Ev) ∈ h →
      ∃ (h1 : Hist) (b : Bool), h = h1 ++ [(⟨.shutdown conn.fd, b⟩ : Ev)] ∧
        (⟨.accept lfd, some conn⟩ : Ev) ∈ h1 := by
    intro p o h hp ho hm
    have hdone : ∀ {h1 u h2 conn' h3 o'} {b : Bool}, Runs (p.localPairPrompt p.templateSpec) (.ok u) h1 →
        Connects rt p (.ok (some conn')) h2 →
        Runs (p.remotePairPrompt p.templateSpec conn'.fd) o' h3 →
        (⟨.accept lfd, some conn⟩ : Ev) ∈ (h1 ++ (h2 ++ (h3 ++ [(⟨.shutdown conn'.fd, b⟩ : Ev)]))) →
        ∃ (g : Hist) (b' : Bool), h1 ++ (h2 ++ (h3 ++ [(⟨.shutdown conn'.fd, b⟩ : Ev)])) =
          g ++ [(⟨.shutdown conn.fd, b'⟩ : Ev)] ∧ (⟨.accept lfd, some conn⟩ : Ev) ∈ g := by
      intro h1 u h2 conn' h3 o' b hl' hc' hr' hm
      simp only [List.mem_append] at hm
      rcases hm with hm | hm | hm | hm
      · exact absurd hm (hl hl')
      · rcases hso hc' hm with h | h
        · simp only [Out.ok.injEq, Option.some.injEq] at h
          subst h
          exact ⟨h1 ++ (h2 ++ h3), b, by simp, by simp [hm]⟩
        · simp at h
      · have := promptCall_of (remotePairPrompt_runs hr') _ hm
        exact this.elim
      · simp at hm
    cases hp with
    | undecided => simp at hm
    | both => simp at hm
    | localPanic _ _ h1 => exact absurd hm (hl h1)
    | noMode _ _ h1 => exact absurd hm (hl h1)
    | sockPanic _ _ h1 h2 =>
      rcases List.mem_append.1 hm with hm | hm
      · exact absurd hm (hl h1)
      · rcases hso h2 hm with h | h <;> simp at h
    | sockErr _ _ h1 h2 =>
      rcases List.mem_append.1 hm with hm | hm
      · exact absurd hm (hl h1)
      · rcases hso h2 hm with h | h <;> simp at h
    | declined _ _ h1 h2 h3 => exact hdone h1 h2 h3 hm
    | paniced _ _ h1 h2 h3 => exact hdone h1 h2 h3 hm
    | _ => simp at ho
  generalize ho : Out.ok ((-1 : Int), st') = o at hr
  cases coreOpen_runs hr with
  | envPanic => simp at hc
  | envErr _ h2 => exact (h2 _ hc).elim
  | panic _ _ h3 =>
    obtain ⟨h1, b, rfl, h4⟩ := key h3 (Or.inl rfl) hc
    exact ⟨h1, [], b, rfl, h4, by simp⟩
  | refused _ _ h3 h4 =>
    rcases List.mem_append.1 hc with hc | hc
    · obtain ⟨h1, b, rfl, h5⟩ := key h3 (Or.inr ⟨_, rfl⟩) hc
      exact ⟨h1, _, b, by simp, h5, hpr h4⟩
    · exact (h4 _ hc).elim
  | _ => simp at ho

/-- Non-vacuity: the pair answers `n`; the peer that connected is shut down, then the error printed. -/
example : retOf (Core.open sampleRt sampleArgs Core.init (List.replicate 50 (coop 110))).1 = some (-1) ∧
    ((Core.open sampleRt sampleArgs Core.init (List.replicate 50 (coop 110))).2.1.map Ev.call).filter
      (fun c => match c with | .accept _ => true | .shutdown _ => true | .sockWrite _ _ => true
                             | .printf _ _ => true | _ => false) =
    [.accept 7, .sockWrite 8 (b! "u@h:/home/u$ sudo ls -l\ny/n? [n]: "), .sockWrite 8 (b! "n"),
      .sockWrite 8 (b! "\n"), .shutdown 8, .printf 3 (b! "\n"), .printf 3 (b! "sudo_pair: "),
      .printf 3 (b! "pair declined the session"), .printf 3 (b! "\n")] := by decide +kernel

end SudoPair
