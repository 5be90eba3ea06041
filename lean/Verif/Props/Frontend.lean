import Verif.Props.Mirror
import Verif.Spec.Frontend
/-
The plugin together with sudo's front end: C59.
-/
namespace SudoPair
open Spec Core

theorem sysOf_append (t u : List Act) : sysOf (t ++ u) = sysOf t ++ sysOf u := by
  simp [sysOf]

theorem passed_append (t u : List Act) : passed (t ++ u) = passed t ++ passed u := by
  simp [passed]

theorem sysOf_map (h : Hist) : sysOf (h.map .sys) = h := by
  induction h with
  | nil => rfl
  | cons e h ih => simpa [sysOf] using ih

theorem passed_map (h : Hist) : passed (h.map .sys) = [] := by
  induction h with
  | nil => rfl
  | cons e h ih => simp [passed]

theorem prefix_append_cases {α : Type _} {u a b : List α} (h : u <+: a ++ b) :
    u <+: a ∨ ∃ v, u = a ++ v ∧ v <+: b := by
  obtain ⟨z, hz⟩ := h
  rcases List.append_eq_append_iff.1 hz with ⟨x, rfl, _⟩ | ⟨x, rfl, rfl⟩
  · exact Or.inl ⟨x, rfl⟩
  · exact Or.inr ⟨x, rfl, z, rfl⟩

/-- A logging callback that returns 1 delivers exactly its payload. -/
theorem step_yes {rt : Rt} {env : IoEnv} {p : Pair} {fd : Nat} {c : Call} {st h}
    (hs : p.socket = some fd) (hc : c.isLog)
    (hr : Runs (Core.step rt c ⟨some env, some p⟩) (.ok (1, st)) h) :
    st = ⟨some env, some p⟩ ∧ delivered fd h = payload env.commandInfo c := by
  obtain rfl := step_log_state (Or.inl hc) hr
  refine ⟨rfl, ?_⟩
  by_cases hin : ∃ buf, c = .log .stdin buf
  · obtain ⟨buf, rfl⟩ := hin
    exact delivered_prints (step_stdin hr).1 fd
  · exact ((step_mirror hs hc (fun b hb => hin ⟨b, hb⟩) hr).yes rfl).1

theorem running_inv {rt : Rt} {env : IoEnv} {p : Pair} {fd : Nat} {t r}
    (hs : p.socket = some fd) (hr : Running rt ⟨some env, some p⟩ t r) :
    (∀ st, r = some st → st = ⟨some env, some p⟩ ∧
      delivered fd (sysOf t) = (passed t).flatMap (payload env.commandInfo)) ∧
    ∀ u, u <+: t → (passed u).flatMap (payload env.commandInfo) <+: delivered fd (sysOf u) := by
  have cut : ∀ {t : List Act} {h : Hist} {x : Act} {u : List Act},
      delivered fd (sysOf t) = (passed t).flatMap (payload env.commandInfo) →
      (∀ u, u <+: t → (passed u).flatMap (payload env.commandInfo) <+: delivered fd (sysOf u)) →
      u <+: t ++ (h.map .sys ++ [x]) → u ≠ t ++ (h.map .sys ++ [x]) →
      (passed u).flatMap (payload env.commandInfo) <+: delivered fd (sysOf u) := by
    intro t h x u h1 h2 hu hne
    rcases prefix_append_cases hu with hu | ⟨v, rfl, hv⟩
    · exact h2 u hu
    · rcases prefix_append_cases hv with hv | ⟨w, rfl, hw⟩
      · obtain ⟨k, rfl, _⟩ : ∃ k : Hist, v = k.map .sys ∧ k <+: h := by
          obtain ⟨z, hz⟩ := hv
          obtain ⟨k, l, rfl, rfl, rfl⟩ := List.map_eq_append_iff.1 hz.symm
          exact ⟨k, rfl, l, rfl⟩
        rw [passed_append, passed_map, sysOf_append, sysOf_map, delivered_append, h1, List.append_nil]
        exact List.prefix_append _ _
      · rcases w with _ | ⟨y, w⟩
        · rw [List.append_nil, passed_append, passed_map, sysOf_append, sysOf_map, delivered_append, h1,
            List.append_nil]
          exact List.prefix_append _ _
        · have : y = x ∧ w = [] := by simpa [List.cons_prefix_cons] using hw
          obtain ⟨rfl, rfl⟩ := this
          exact absurd rfl hne
  induction hr with
  | nil =>
    refine ⟨fun st h => ⟨(Option.some.inj h).symm, rfl⟩, fun u hu => ?_⟩
    rw [List.prefix_nil.1 hu]; exact List.nil_prefix
  | @pass t st' c st'' h hrun hc hstep ih =>
    obtain ⟨h1', h2⟩ := ih
    obtain ⟨rfl, h1⟩ := h1' _ rfl
    clear h1'
    obtain ⟨rfl, hd⟩ := step_yes hs hc hstep
    have hall : delivered fd (sysOf (t ++ (h.map .sys ++ [.pass c]))) =
        (passed (t ++ (h.map .sys ++ [.pass c]))).flatMap (payload env.commandInfo) := by
      have e1 : sysOf [Act.pass c] = [] := rfl
      have e2 : passed [Act.pass c] = [c] := rfl
      simp only [sysOf_append, passed_append, sysOf_map, passed_map, delivered_append, h1, hd, e1, e2,
        List.append_nil, List.nil_append, List.flatMap_append, List.flatMap_cons, List.flatMap_nil]
    refine ⟨fun st hst => ⟨(Option.some.inj hst).symm, hall⟩, fun u hu => ?_⟩
    by_cases hne : u = t ++ (h.map .sys ++ [.pass c])
    · rw [hne, hall]; exact List.prefix_rfl
    · exact cut h1 h2 hu hne
  | @stop t st' c o h hrun hc hstep hno ih =>
    obtain ⟨h1', h2⟩ := ih
    obtain ⟨rfl, h1⟩ := h1' _ rfl
    clear h1'
    refine ⟨fun st hst => (by cases hst), fun u hu => ?_⟩
    by_cases hne : u = t ++ (h.map .sys ++ [.stop])
    · rw [hne]
      have e1 : sysOf [Act.stop] = [] := rfl
      have e2 : passed [Act.stop] = [] := rfl
      simp only [sysOf_append, passed_append, sysOf_map, passed_map, delivered_append, h1, e1, e2,
        List.append_nil]
      exact List.prefix_append _ _
    · exact cut h1 h2 hu hne

theorem running_no_start {rt st t r} (hr : Running rt st t r) : Act.start ∉ t := by
  induction hr with
  | nil => simp
  | pass _ _ _ ih => simpa using ih
  | stop _ _ _ _ ih => simpa using ih

/-- C59: at every instant of a sudo session that is not exempt: nothing is passed on and the command is
not started before a pair approved; and from then on whatever sudo has passed on (output of logged
facilities shown to the user, resizes) the pair's socket has accepted before, completely and in
order. -/
theorem C59_pair_sees_first (rt : Rt) (a : OpenArgs) (env : IoEnv) (t : List Act)
    (hs : SudoSession rt a t) (hnew : IoEnv.new rt a = some (.ok env))
    (hcmd : env.commandInfo.command ≠ []) (hne : ¬ SessionExempt env) :
    (∀ u, u <+: t → Act.start ∉ u → passed u = []) ∧
    ∀ t1 t2, t = t1 ++ .start :: t2 → ∃ fd, ApprovedSession env fd (sysOf t1) ∧
      ∀ u, u <+: t2 → (passed u).flatMap (payload env.commandInfo) <+: delivered fd (sysOf u) := by
  have nostart : ∀ (h : Hist), Act.start ∉ h.map Act.sys := by
    intro h hm; simp at hm
  cases hs with
  | @refused o h hr hno =>
    constructor
    · intro u hu _
      obtain ⟨z, hz⟩ := hu
      have : passed (h.map .sys ++ [.stop]) = [] := by rw [passed_append, passed_map]; rfl
      rw [← hz, passed_append] at this
      exact (List.append_eq_nil_iff.1 this).1
    · intro t1 t2 ht
      have : Act.start ∈ h.map Act.sys ++ [.stop] := by rw [ht]; simp
      simp at this
  | @runs st h t r hr hrun =>
    obtain ⟨p, rfl, hpo⟩ := fresh_open_stored hr hnew hcmd
    obtain ⟨fd, rfl, happ⟩ := approvedSession_of hne hpo
    constructor
    · intro u hu hns
      rcases prefix_append_cases hu with hu | ⟨v, rfl, hv⟩
      · obtain ⟨z, hz⟩ := hu
        have := passed_map h
        rw [← hz, passed_append] at this
        exact (List.append_eq_nil_iff.1 this).1
      · rcases v with _ | ⟨y, v⟩
        · rw [List.append_nil]; exact passed_map h
        · have : y = .start := by simpa [List.cons_prefix_cons] using (List.cons_prefix_cons.1 hv).1
          subst this
          simp at hns
    · intro t1 t2 ht
      have hst := running_no_start hrun
      have h1 : h.map Act.sys = t1 ∧ t = t2 := by
        rcases List.append_eq_append_iff.1 ht with ⟨x, rfl, hx⟩ | ⟨x, hx, hx'⟩
        · rcases x with _ | ⟨y, x⟩
          · exact ⟨by simp, by simpa using hx⟩
          · simp only [List.cons_append, List.cons.injEq] at hx
            obtain ⟨_, rfl⟩ := hx
            simp at hst
        · rcases x with _ | ⟨y, x⟩
          · exact ⟨by simpa using hx, by simpa using hx'.symm⟩
          · simp only [List.cons_append, List.cons.injEq] at hx'
            obtain ⟨rfl, _⟩ := hx'
            exact absurd (hx ▸ by simp) (nostart h)
      obtain ⟨rfl, rfl⟩ := h1
      refine ⟨fd, by rw [sysOf_map]; exact happ, (running_inv rfl hrun).2⟩

/-- Everything of facility `f` among the callbacks that sudo went on after is part of what the pair
received, if `f` is a logged output facility. -/
theorem shown_sublist {ci : CommandInfo} {f : Facility} {u : List Act}
    (hf : (f = .ttyout ∧ ci.iologTtyout = true) ∨ (f = .stdout ∧ ci.iologStdout = true) ∨
      (f = .stderr ∧ ci.iologStderr = true)) :
    List.Sublist (shown f u) ((passed u).flatMap (payload ci)) := by
  unfold shown
  induction passed u with
  | nil => simp
  | cons c l ih =>
    simp only [List.flatMap_cons]
    refine List.Sublist.append ?_ ih
    cases c with
    | log g buf =>
      by_cases hg : g = f
      · subst hg
        rcases hf with ⟨rfl, h⟩ | ⟨rfl, h⟩ | ⟨rfl, h⟩ <;> simp [payload, h]
      · simp [hg]
    | _ => simp

/-- C59 for one logged output facility: at every instant of the session, all that the user has been
shown is contained, in order, in what the pair's socket has accepted since the command was started. -/
theorem C59_shown (rt : Rt) (a : OpenArgs) (env : IoEnv) (f : Facility) (t1 t2 u : List Act)
    (hs : SudoSession rt a (t1 ++ .start :: t2)) (hnew : IoEnv.new rt a = some (.ok env))
    (hcmd : env.commandInfo.command ≠ []) (hne : ¬ SessionExempt env)
    (hf : (f = .ttyout ∧ env.commandInfo.iologTtyout = true) ∨
      (f = .stdout ∧ env.commandInfo.iologStdout = true) ∨
      (f = .stderr ∧ env.commandInfo.iologStderr = true)) (hu : u <+: t2) :
    ∃ fd, ApprovedSession env fd (sysOf t1) ∧ List.Sublist (shown f u) (delivered fd (sysOf u)) := by
  obtain ⟨fd, h1, h2⟩ := (C59_pair_sees_first rt a env _ hs hnew hcmd hne).2 t1 t2 rfl
  exact ⟨fd, h1, (shown_sublist hf).trans (h2 u hu).sublist⟩

/-- A callback for standard input, logged, does not return 1 in a session that is not exempt. -/
theorem running_no_stdin {rt : Rt} {env : IoEnv} {p : Pair} {fd : Nat} {t r}
    (hs : p.socket = some fd) (hx : p.isExempt rt.debug = some false)
    (hi : env.commandInfo.iologStdin = true)
    (hr : Running rt ⟨some env, some p⟩ t r) :
    (∀ st, r = some st → st = ⟨some env, some p⟩) ∧ ∀ buf, Act.pass (.log .stdin buf) ∉ t := by
  induction hr with
  | nil => exact ⟨fun st h => (Option.some.inj h).symm, by simp⟩
  | @pass t st' c st'' h hrun hc hstep ih =>
    obtain ⟨h1', h2⟩ := ih
    obtain rfl := h1' _ rfl
    obtain ⟨rfl, _⟩ := step_yes hs hc hstep
    refine ⟨fun st h => (Option.some.inj h).symm, fun buf hm => ?_⟩
    simp only [List.mem_append, List.mem_map, reduceCtorEq, and_false, exists_false, List.mem_cons,
      List.not_mem_nil, or_false, false_or, Act.pass.injEq] at hm
    rcases hm with hm | rfl
    · exact h2 buf hm
    · rcases (step_stdin hstep).2.2.1 hi hx with h | h <;> simp at h
  | @stop t st' c o h hrun hc hstep hno ih =>
    refine ⟨fun st hst => (by cases hst), fun buf hm => ?_⟩
    simp only [List.mem_append, List.mem_map, reduceCtorEq, and_false, exists_false, List.mem_cons,
      List.not_mem_nil, or_false] at hm
    exact ih.2 buf hm

/-- C59 (input): in a session that is not exempt, no redirected standard input reaches the command as long
as sudo is told to log it. -/
theorem C59_no_stdin (rt : Rt) (a : OpenArgs) (env : IoEnv) (t : List Act) (buf : Bytes)
    (hs : SudoSession rt a t) (hnew : IoEnv.new rt a = some (.ok env))
    (hcmd : env.commandInfo.command ≠ []) (hne : ¬ SessionExempt env)
    (hi : env.commandInfo.iologStdin = true) : Act.pass (.log .stdin buf) ∉ t := by
  cases hs with
  | refused _ _ => simp
  | @runs st h t r hr hrun =>
    obtain ⟨p, rfl, hpo⟩ := fresh_open_stored hr hnew hcmd
    have hx : (Pair.ofEnv env).isExempt rt.debug = some false := by
      generalize ho : (Out.ok (Except.ok p) : Out (Except ErrorKind Pair)) = o at hpo
      cases hpo with
      | exempt h => exact absurd h (not_exempt_of hne)
      | approved h => exact h
      | _ => simp at ho
    obtain ⟨fd, rfl, _⟩ := approvedSession_of hne hpo
    have := (running_no_stdin (p := { Pair.ofEnv env with socket := some fd }) (fd := fd) rfl hx hi hrun).2 buf
    simpa using this

/-- A front end that makes the callbacks `cs` one after the other, on a schedule of answers. -/
def goOn (rt : Rt) : List Call → State → Sched → List Act
  | [], _, _ => []
  | c :: cs, st, s =>
    match Core.step rt c st s with
    | (.ok (1, st'), h, s') => h.map .sys ++ .pass c :: goOn rt cs st' s'
    | (_, h, _) => h.map .sys ++ [.stop]

/-- A front end that opens the plugin and then makes the callbacks `cs`. -/
def frontend (rt : Rt) (a : OpenArgs) (cs : List Call) (s : Sched) : List Act :=
  match Core.open rt a Core.init s with
  | (.ok (1, st), h, s') => h.map .sys ++ .start :: goOn rt cs st s'
  | (_, h, _) => h.map .sys ++ [.stop]

theorem goOn_running {rt : Rt} (cs : List Call) : ∀ {st0 st : State} {t : List Act} (s : Sched),
    (∀ c ∈ cs, c.isLog) → Running rt st0 t (some st) → ∃ r, Running rt st0 (t ++ goOn rt cs st s) r := by
  induction cs with
  | nil => intro st0 st t s _ hr; exact ⟨_, by simpa [goOn] using hr⟩
  | cons c cs ih =>
    intro st0 st t s hc hr
    unfold goOn
    split
    · rename_i st' h s' he
      obtain ⟨r, hr'⟩ := ih s' (fun c h => hc c (List.mem_cons_of_mem _ h))
        (.pass hr (hc c (List.mem_cons_self ..)) (runs_of he))
      exact ⟨r, by simpa using hr'⟩
    · rename_i o h s' hno he
      exact ⟨none, .stop hr (hc c (List.mem_cons_self ..)) (runs_of he) hno⟩

theorem frontend_session (rt : Rt) (a : OpenArgs) (cs : List Call) (s : Sched) (hc : ∀ c ∈ cs, c.isLog) :
    SudoSession rt a (frontend rt a cs s) := by
  unfold frontend
  split
  · rename_i st h s' he
    obtain ⟨r, hr⟩ := goOn_running cs s' hc (Running.nil (rt := rt) (st := st))
    exact .runs (runs_of he) hr
  · rename_i o h s' hno he
    exact .refused (runs_of he) hno

/-- Non-vacuity: the sample session: the pair approves, two pieces of terminal output are shown (and were
sent to the pair), then redirected input ends the session before a third. -/
example :
    let t := frontend sampleRt sampleArgs [.log .ttyout (b! "ab"), .log .ttyin (b! "k"),
      .log .ttyout (b! "c"), .log .stdin (b! "x"), .log .ttyout (b! "d")] (List.replicate 90 (coop 121))
    SudoSession sampleRt sampleArgs t ∧ shown .ttyout t = b! "abc" ∧
    shown .ttyin t = b! "k" ∧ shown .stdin t = [] ∧
    delivered 8 (sysOf t) = b! "u@h:/home/u$ sudo ls -l\ny/n? [n]: y\nabc" := by
  refine ⟨frontend_session _ _ _ _ (by simp [Call.isLog]), ?_⟩
  decide +kernel

/-- Non-vacuity: when the pair says no, nothing is started. -/
example :
    let t := frontend sampleRt sampleArgs [.log .ttyout (b! "ab")] (List.replicate 90 (coop 110))
    SudoSession sampleRt sampleArgs t ∧ passed t = [] ∧
      (t.any fun a => match a with | .start => true | _ => false) = false := by
  refine ⟨frontend_session _ _ _ _ (by simp [Call.isLog]), ?_⟩
  decide +kernel

end SudoPair
