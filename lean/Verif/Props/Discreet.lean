import Verif.Spec.Discreet
import Verif.Props.EndToEnd
/-
C77: what a session shows goes to the pair, and to nobody else.
-/
namespace SudoPair
open Spec Core

theorem allEv_writeAll_suffix {P : Ev → Prop} {w : Bytes → M WriteRes} {buf : Bytes} (hw : ∀ b, b <:+ buf → AllEv P (w b)) :
    AllEv P (writeAll w buf) := by
  have happ : ∀ h h' : Hist, (∀ e ∈ h, P e) → (∀ e ∈ h', P e) → ∀ e ∈ h ++ h', P e := by
    intro h h' hh hh' e he
    rcases List.mem_append.1 he with he | he
    · exact hh e he
    · exact hh' e he
  have key : wp (writeAll w buf) (fun _ h => buf <:+ buf → ∀ e ∈ h, P e) := by
    refine wp_writeAll (P := fun b _ h => b <:+ buf → ∀ e ∈ h, P e) (by simp) (by simp) ?_ buf
    intro b _
    by_cases hb : b <:+ buf
    · refine wp_mono (hw b hb) ?_
      rintro (((_ | n) | _ | _) | _ | _) h hh
      · exact fun _ => hh
      · exact ⟨fun _ o h' hh' h1 => happ h h' hh (hh' ((List.drop_suffix _ _).trans h1)), fun _ _ => hh⟩
      · exact fun o h' hh' h1 => happ h h' hh (hh' h1)
      · exact fun _ => hh
      · exact fun _ => hh
      · exact fun _ => hh
    · intro s
      rcases w b s with ⟨((_ | n) | _ | _) | _ | _, h, s'⟩
      · exact fun h => absurd h hb
      · exact ⟨fun _ o h' _ h1 => absurd h1 hb, fun _ h => absurd h hb⟩
      · exact fun o h' _ h1 => absurd h1 hb
      · exact fun h => absurd h hb
      · exact fun h => absurd h hb
      · exact fun h => absurd h hb
  exact wp_mono key fun _ _ h => h List.suffix_rfl

variable {fd : Option Nat} {data : Bytes}

theorem printf_discreet (hp : Bool) {m : Bytes} (hm : m ∈ sessionMessages) :
    AllEv (fun e => Discreet fd data e.call) ((PrintFacility.stderr hp).writeAll m) := by
  refine allEv_writeAll_suffix fun b hb => ?_
  unfold PrintFacility.write
  refine allEv_ite (allEv_pure _) (allEv_ite (allEv_pure _) (allEv_sys fun r => ?_))
  exact ⟨rfl, m, hm, hb⟩

theorem writeError_discreet (hp : Bool) {m : Bytes} (hm : m ∈ sessionMessages) :
    AllEv (fun e => Discreet fd data e.call) ((PrintFacility.stderr hp).writeError m none) := by
  have h1 : b! "\n" ∈ sessionMessages := by simp [sessionMessages]
  have h2 : (PrintFacility.stderr hp).tag ∈ sessionMessages := by simp [sessionMessages, PrintFacility.stderr]
  unfold PrintFacility.writeError PrintFacility.writeLine
  refine allEv_bind (printf_discreet hp h1) fun b => allEv_ite (allEv_bind ?_ fun b => allEv_ite ?_ (allEv_pure _)) (allEv_pure _)
  · exact allEv_bind (printf_discreet hp h2) fun b => allEv_ite (allEv_bind (printf_discreet hp hm) fun b =>
      allEv_ite (printf_discreet hp h1) (allEv_pure _)) (allEv_pure _)
  · intro s
    exact allEv_pure (P := fun e => Discreet fd data e.call) true s

theorem finish_discreet (env : IoEnv) {r : Except ErrorKind Unit}
    (hr : r = .ok () ∨ r = .error .sessionTerminated ∨ r = .error .stdinRedirected) :
    AllEv (fun e => Discreet fd data e.call) (finish env r) := by
  rcases hr with rfl | rfl | rfl
  · exact allEv_pure _
  · exact allEv_bind (writeError_discreet _ (by decide)) fun _ => allEv_pure _
  · exact allEv_bind (writeError_discreet _ (by decide)) fun _ => allEv_pure _

theorem write_discreet {g : Nat} (hg : fd = some g) {b : Bytes} (hb : b <:+ data) :
    AllEv (fun e => Discreet fd data e.call) (Socket.write g b) := by
  unfold Socket.write ctrlCAborts
  refine allEv_bind (allEv_bind (allEv_sys fun _ => trivial) fun r => ?_) fun r => by split <;> exact allEv_pure _
  split
  · exact allEv_pure _
  · refine allEv_bind (allEv_sys fun _ => trivial) fun _ => allEv_ite ?_ (allEv_pure _)
    refine allEv_bind (allEv_sys fun _ => ⟨hg, hb⟩) fun _ => ?_
    exact allEv_bind (allEv_sys fun _ => trivial) fun _ => allEv_ite (allEv_pure _) (allEv_pure _)

theorem allEv_bind_of {α β : Type} {P : Ev → Prop} {m : M α} {f : α → M β} (Q : α → Prop) (hm : AllEv P m)
    (hq : ∀ a h, Runs m (.ok a) h → Q a) (hf : ∀ a, Q a → AllEv P (f a)) : AllEv P (m >>= f) := by
  refine wp_iff_runs.2 fun o h hr => ?_
  rcases hr.bind with ⟨a, h1, h2, k1, k2, rfl⟩ | ⟨rfl, k⟩ | ⟨rfl, k⟩
  · intro e he
    rcases List.mem_append.1 he with he | he
    · exact hm.of_runs k1 e he
    · exact (hf a (hq a _ k1)).of_runs k2 e he
  · exact hm.of_runs k
  · exact hm.of_runs k

theorem logOutput_result {p : Pair} {buf : Bytes} {r h} (hr : Runs (p.logOutput buf) (.ok r) h) :
    r = .ok () ∨ r = .error .sessionTerminated ∨ r = .error .stdinRedirected := by
  unfold Pair.logOutput at hr
  split at hr
  · have := hr.pure.1; simp at this; exact Or.inl this
  · rcases hr.bind with ⟨a, h1, h2, k1, k2, rfl⟩ | ⟨h, -⟩ | ⟨h, -⟩
    · split at k2
      · have := k2.pure.1; simp at this; exact Or.inl this
      · have := k2.pure.1; simp at this; exact Or.inr (Or.inl this)
    · simp at h
    · simp at h

theorem logOutput_discreet (p : Pair) {buf : Bytes} (hb : buf <:+ data) :
    AllEv (fun e => Discreet p.socket data e.call) (p.logOutput buf) := by
  unfold Pair.logOutput
  split
  · exact allEv_pure _
  · rename_i g hg
    refine allEv_bind (allEv_writeAll_suffix fun b h => write_discreet hg (h.trans hb)) fun _ => allEv_ite (allEv_pure _) (allEv_pure _)

theorem logStdin_result {rt : Rt} {p : Pair} {r h} (hr : Runs (p.logStdin rt) (.ok r) h) :
    r = .ok () ∨ r = .error .sessionTerminated ∨ r = .error .stdinRedirected := by
  unfold Pair.logStdin at hr
  rcases hr.bind with ⟨a, h1, h2, k1, k2, rfl⟩ | ⟨h, -⟩ | ⟨h, -⟩
  · split at k2
    · have := k2.pure.1; simp at this; exact Or.inl this
    · have := k2.pure.1; simp at this; exact Or.inr (Or.inr this)
  · simp at h
  · simp at h

/-- The output that a call of sudo asks the plugin to show to the pair, in the given state. -/
def toShow (st : State) (c : Call) : Bytes :=
  match st.env with
  | some env => payload env.commandInfo c
  | none     => []

/-- C77: in any state, `log_*` and `change_winsize` interact with the system only by setting the handler of Ctrl-C, by
writing (pieces of) the data to the connection with the pair, if there is one and the data is output that is to be
logged, and by error messages with a fixed text.  In particular the data, and all input, goes nowhere else; and nothing
is read, neither from the pair nor from a file. -/
theorem C77_log {rt : Rt} {c : Call} {st : State} {o} {h : Hist} (hc : c.isLog) (hr : Runs (Core.step rt c st) o h) {e : Ev}
    (he : e ∈ h) : Discreet (st.plugin.bind (·.socket)) (toShow st c) e.call := by
  refine AllEv.of_runs (P := fun e => Discreet (st.plugin.bind (·.socket)) (toShow st c) e.call) ?_ hr e he
  rcases c with _ | _ | _ | ⟨f, buf⟩ | ⟨l, cc⟩ <;> simp [Call.isLog] at hc
  · refine allEv_bind ?_ fun _ => allEv_pure _
    unfold Core.log
    refine allEv_bind (allEv_catchUnwind ?_) fun _ => allEv_pure _
    refine allEv_bind_of (fun env => st.env = some env) (allEv_ofOption _) ?_ fun env henv => ?_
    · intro a h k
      cases h1 : st.env <;> rw [h1] at k
      · obtain ⟨s, hs, -⟩ := k; simp [M.ofOption, M.panic] at hs
      · have := Runs.pure k; simpa using this.1.symm
    refine allEv_bind_of (fun p => st.plugin = some p) (allEv_ofOption _) ?_ fun p hp => ?_
    · intro a h k
      cases h1 : st.plugin <;> rw [h1] at k
      · obtain ⟨s, hs, -⟩ := k; simp [M.ofOption, M.panic] at hs
      · have := Runs.pure k; simpa using this.1.symm
    have e1 : st.plugin.bind (·.socket) = p.socket := by rw [hp]; rfl
    have e2 : toShow st (.log f buf) = payload env.commandInfo (.log f buf) := by unfold toShow; rw [henv]
    rw [e1, e2]
    split
    · exact allEv_pure _
    rename_i hh
    cases f with
    | ttyin => exact allEv_bind_of (fun r => r = .ok ()) (allEv_pure _) (fun a h k => by simpa using (Runs.pure k).1) fun r hr =>
        finish_discreet _ (Or.inl hr)
    | stdin =>
      refine allEv_bind_of _ ?_ (fun a h k => logStdin_result k) fun r hr => finish_discreet _ hr
      show AllEv _ (p.logStdin rt)
      unfold Pair.logStdin
      exact allEv_bind (allEv_ofOption _) fun _ => allEv_ite (allEv_pure _) (allEv_pure _)
    | _ =>
      refine allEv_bind_of _ (logOutput_discreet p ?_) (fun a h k => logOutput_result k) fun r hr => finish_discreet _ hr
      simp_all [payload, hint]
  · refine allEv_bind ?_ fun _ => allEv_pure _
    unfold Core.changeWinsize
    refine allEv_bind (allEv_catchUnwind ?_) fun _ => allEv_pure _
    refine allEv_bind_of (fun env => st.env = some env) (allEv_ofOption _) ?_ fun env henv => ?_
    · intro a h k
      cases h1 : st.env <;> rw [h1] at k
      · obtain ⟨s, hs, -⟩ := k; simp [M.ofOption, M.panic] at hs
      · have := Runs.pure k; simpa using this.1.symm
    refine allEv_bind_of (fun p => st.plugin = some p) (allEv_ofOption _) ?_ fun p hp => ?_
    · intro a h k
      cases h1 : st.plugin <;> rw [h1] at k
      · obtain ⟨s, hs, -⟩ := k; simp [M.ofOption, M.panic] at hs
      · have := Runs.pure k; simpa using this.1.symm
    have e1 : st.plugin.bind (·.socket) = p.socket := by rw [hp]; rfl
    have e2 : toShow st (.changeWinsize l cc) = resize l cc := by unfold toShow; rw [henv]; rfl
    rw [e1, e2]
    refine allEv_bind_of _ (logOutput_discreet p ?_) (fun a h k => logOutput_result k) fun r hr => finish_discreet _ hr
    rw [winsizeSeq_eq]
    exact List.suffix_refl _

theorem During.append {c : Call} {v x : List Act} (h : During c v) (hn : Act.stop ∉ v) : During c (v ++ x) := by
  rcases h with ⟨w, v', rfl⟩ | ⟨w, rfl⟩
  · exact Or.inl ⟨w, v' ++ x, by simp⟩
  · simp at hn

theorem running_no_stop {rt : Rt} {st st' : State} {t} (hr : Running rt st t (some st')) : Act.stop ∉ t := by
  generalize hs : some st' = s at hr
  induction hr generalizing st' with
  | nil => simp
  | @pass t st1 c st'' h hrun hc hstep ih => simpa using ih rfl
  | stop => cases hs

/-- An interaction of a list of actions that ends with those of one callback is one of these or an earlier one. -/
theorem split_last {t u v : List Act} {h : Hist} {x : Act} {e : Ev} (hx : ∀ e, x ≠ .sys e)
    (hs : t ++ (h.map .sys ++ [x]) = u ++ .sys e :: v) :
    (∃ v', t = u ++ .sys e :: v' ∧ v = v' ++ (h.map .sys ++ [x])) ∨
    (e ∈ h ∧ ∃ w : Hist, v = w.map .sys ++ [x]) := by
  rcases List.append_eq_append_iff.1 hs with ⟨y, rfl, hy⟩ | ⟨y, rfl, hy⟩
  · right
    rcases List.append_eq_append_iff.1 hy with ⟨z, rfl, hz⟩ | ⟨z, hz, hz'⟩
    · rcases z with _ | ⟨z0, z⟩
      · simp only [List.nil_append, List.cons.injEq] at hz
        exact absurd hz.1 (hx e)
      · simp at hz
    · rcases z with _ | ⟨z0, z⟩
      · simp only [List.nil_append, List.cons.injEq] at hz'
        exact absurd hz'.1.symm (hx e)
      · simp only [List.cons_append, List.cons.injEq] at hz'
        obtain ⟨rfl, rfl⟩ := hz'
        obtain ⟨l1, l2, rfl, -, h2⟩ := List.map_eq_append_iff.1 hz
        obtain ⟨e', l3, rfl, h3, rfl⟩ := List.map_eq_cons_iff.1 h2
        cases h3
        exact ⟨by simp, l3, rfl⟩
  · rcases y with _ | ⟨y0, y⟩
    · right
      simp only [List.nil_append] at hy
      rcases h with _ | ⟨e', h⟩
      · simp only [List.map_nil, List.nil_append, List.cons.injEq] at hy
        exact absurd hy.1.symm (hx e)
      · simp only [List.map_cons, List.cons_append, List.cons.injEq] at hy
        obtain ⟨h1, rfl⟩ := hy
        cases h1
        exact ⟨by simp, h, rfl⟩
    · left
      simp only [List.cons_append, List.cons.injEq] at hy
      obtain ⟨rfl, rfl⟩ := hy
      exact ⟨y, rfl, rfl⟩

theorem running_discreet {rt : Rt} {st : State} {t r} (hr : Running rt st t r) :
    (∀ st', r = some st' → st' = st) ∧
    ∀ u e v, t = u ++ .sys e :: v →
      ∃ c : Call, c.isLog ∧ During c v ∧ Discreet (st.plugin.bind (·.socket)) (toShow st c) e.call := by
  induction hr with
  | nil => exact ⟨fun st' h => (Option.some.inj h).symm, by simp⟩
  | @pass t st' c st'' h hrun hc hstep ih =>
    obtain ⟨ih1, ih2⟩ := ih
    obtain rfl := ih1 _ rfl
    have := step_log_state (Or.inl hc) hstep
    refine ⟨fun _ h => (Option.some.inj h).symm.trans this, fun u e v he => ?_⟩
    rcases split_last (by simp) he with ⟨v', h1, rfl⟩ | ⟨h1, w, rfl⟩
    · obtain ⟨c', h2, h3, h4⟩ := ih2 u e v' h1
      exact ⟨c', h2, During.append h3 (fun hm => running_no_stop hrun (by rw [h1]; simp [hm])), h4⟩
    · exact ⟨c, hc, Or.inl ⟨w, [], rfl⟩, C77_log hc hstep h1⟩
  | @stop t st' c o h hrun hc hstep hno ih =>
    obtain ⟨ih1, ih2⟩ := ih
    obtain rfl := ih1 _ rfl
    refine ⟨fun _ h => (by cases h), fun u e v he => ?_⟩
    rcases split_last (by simp) he with ⟨v', h1, rfl⟩ | ⟨h1, w, rfl⟩
    · obtain ⟨c', h2, h3, h4⟩ := ih2 u e v' h1
      exact ⟨c', h2, During.append h3 (fun hm => running_no_stop hrun (by rw [h1]; simp [hm])), h4⟩
    · exact ⟨c, hc, Or.inr ⟨w, rfl⟩, C77_log hc hstep h1⟩

/-- C77: once the command of a session that is not exempt has been started, all that the plugin does is to set the
handler of Ctrl-C, to write the output or window size that sudo is passing to it at that moment to the connection of
the pair that approved the session, and to show fixed error messages.  So nobody else gets to see anything of the session from the plugin, none of the input goes anywhere,
and nothing is read: the pair can end the session but not take part in it. -/
theorem C77_session {rt : Rt} {a : OpenArgs} {env : IoEnv} {t1 t2 : List Act}
    (hs : SudoSession rt a (t1 ++ .start :: t2)) (hnew : IoEnv.new rt a = some (.ok env))
    (hcmd : env.commandInfo.command ≠ []) (hne : ¬ SessionExempt env) :
    ∃ fd, ApprovedSession env fd (sysOf t1) ∧
      ∀ u e v, t2 = u ++ .sys e :: v →
        ∃ c : Call, c.isLog ∧ During c v ∧ Discreet (some fd) (payload env.commandInfo c) e.call := by
  obtain ⟨st, r, hr, hrun⟩ := start_inv hs
  obtain ⟨p, rfl, hpo⟩ := fresh_open_stored hr hnew hcmd
  obtain ⟨fd, rfl, happ⟩ := approvedSession_of hne hpo
  exact ⟨fd, happ, (running_discreet hrun).2⟩

/-- C77: in an exempt session nothing of it goes anywhere. -/
theorem C77_exempt {rt : Rt} {a : OpenArgs} {env : IoEnv} {t1 t2 : List Act}
    (hs : SudoSession rt a (t1 ++ .start :: t2)) (hnew : IoEnv.new rt a = some (.ok env))
    (hcmd : env.commandInfo.command ≠ []) (hx : SessionExempt env) :
    sysOf t1 = [] ∧ ∀ e ∈ sysOf t2, Discreet none [] e.call := by
  obtain ⟨st, r, hr, hrun⟩ := start_inv hs
  obtain ⟨p, rfl, hpo⟩ := fresh_open_stored hr hnew hcmd
  generalize ho : (Out.ok (Except.ok p) : Out (Except ErrorKind Pair)) = o at hpo
  generalize hh : sysOf t1 = h at hpo
  have hno : (Pair.ofEnv env).isExempt rt.debug ≠ some false := fun h => by
    have := (C04_rule rt.debug (Pair.ofEnv env) false h).2 hx
    simp at this
  cases hpo <;> first | (exact absurd (by assumption) hno) | (simp at ho; done) | skip
  obtain rfl := by simpa using ho
  refine ⟨rfl, ?_⟩
  have h1 : (Pair.ofEnv env).socket = none := rfl
  intro e he
  obtain ⟨u, v, he⟩ : ∃ u v, t2 = u ++ .sys e :: v := by
    obtain ⟨x, hx, hy⟩ := List.mem_filterMap.1 he
    cases x <;> simp at hy
    subst hy
    exact List.append_of_mem hx
  obtain ⟨c, -, -, h2⟩ := (running_discreet hrun).2 u e v he
  simp only [Option.bind_some, h1] at h2
  revert h2
  cases e.call <;> simp [Discreet]

/-! ### Concrete cases -/

/-- What is done after the command has been started, apart from the handler of Ctrl-C. -/
def traffic (t : List Act) : List Sys :=
  ((sysOf ((t.dropWhile fun | .start => false | _ => true).drop 1)).map (·.call)).filter
    fun | .sigGet => false | .sigSet _ => false | _ => true

/-- As `sampleArgs`, but root is the user. -/
def rootArgs : OpenArgs := { sampleArgs with
  userInfo := some [b! "cwd=/root", b! "egid=0", b! "euid=0", b! "gid=0", b! "groups=0",
    b! "host=h", b! "pgid=41", b! "pid=42", b! "ppid=40", b! "uid=0", b! "user=root", b! "tty=/dev/pts/0"] }

/-- Non-vacuity: output is written to the connection of the pair, input is not; and the message at the end. -/
example :
    let t := frontend sampleRt sampleArgs [.log .ttyout (b! "ab"), .log .ttyin (b! "secret"), .log .stdin (b! "x")]
      (List.replicate 90 (coop 121))
    SudoSession sampleRt sampleArgs t ∧
    traffic t = [.sockWrite 8 (b! "ab"), .printf 3 (b! "\n"), .printf 3 (b! "sudo_pair: "),
      .printf 3 (b! "redirection of stdin to paired sessions is prohibited"), .printf 3 (b! "\n")] := by
  refine ⟨frontend_session _ _ _ _ (by simp [Call.isLog]), ?_⟩
  decide +kernel

/-- Non-vacuity of the exempt case: root's session is logged nowhere. -/
example :
    let t := frontend sampleRt rootArgs [.log .ttyout (b! "ab"), .log .stdin (b! "x")] (List.replicate 90 (coop 121))
    SudoSession sampleRt rootArgs t ∧ traffic t = [] ∧ shown .ttyout t = b! "ab" := by
  refine ⟨frontend_session _ _ _ _ (by simp [Call.isLog]), ?_⟩
  decide +kernel

end SudoPair
