import Verif.Spec.Sudoers
import Verif.Props.Loss
/-
C87: the commands chosen in sudoers.
-/
namespace SudoPair
open Spec Core

theorem told_reads {vec : Option (List Bytes)} {k : Bytes} {b x : Bool} (ht : Told vec k b)
    (hr : Reads vec k DenotesB false x) : x = b := by
  cases b with
  | true => exact hr.1 _ true ((ht _).2 ⟨rfl, rfl⟩) (utf8_of_ascii (by decide)) (by simp [DenotesB])
  | false => exact hr.2 (fun ⟨v, a, h, _⟩ => by simpa using ((ht v).1 h).1)

/-- C87: the plugin knows what sudoers says about logging. -/
theorem C87_hints {rt : Rt} {a : OpenArgs} {env : IoEnv} (hnew : IoEnv.new rt a = some (.ok env)) {l : Logging}
    (hl : l.ToldIn a.commandInfo) :
    env.commandInfo.iologTtyout = l.output ∧ env.commandInfo.iologStdout = l.output ∧
    env.commandInfo.iologStderr = l.output ∧ env.commandInfo.iologStdin = l.input ∧
    env.commandInfo.iologTtyin = l.input := by
  obtain ⟨_, _, _, _, _, hc, _⟩ := C52_environment hnew
  obtain ⟨_, _, _, _, _, _, _, _, _, _, _, _, _, _, _, h1, h2, h3, h4, h5, _⟩ := hc
  obtain ⟨t1, t2, t3, t4, t5⟩ := hl
  exact ⟨told_reads t3 h5, told_reads t1 h2, told_reads t2 h3, told_reads t4 h1, told_reads t5 h4⟩

/-- C87: a session is exempt if and only if sudoers does not want its output logged, or for another reason. -/
theorem C87_exempt {rt : Rt} {a : OpenArgs} {env : IoEnv} (hnew : IoEnv.new rt a = some (.ok env)) {l : Logging}
    (hl : l.ToldIn a.commandInfo) :
    SessionExempt env ↔ l.output = false ∨ ExemptAnyway env (.ofMap env.pluginOptions) := by
  obtain ⟨h1, h2, h3, _⟩ := C87_hints hnew hl
  have hu : Unlogged env ↔ l.output = false := by simp [Unlogged, h1, h2, h3]
  unfold SessionExempt Exempt ExemptAnyway optionsOf
  rw [hu]
  simp only [or_left_comm (b := l.output = false)]

/-- C87: a command whose output is not to be logged runs without anybody being asked. -/
theorem C87_unpaired {s : Sudoers} {r : Request} {l : Logging} (_hs : s.logging r = some l) (ho : l.output = false)
    {rt : Rt} (hrel : rt.debug = false) {a : OpenArgs} {env : IoEnv} (hnew : IoEnv.new rt a = some (.ok env))
    (hl : l.ToldIn a.commandInfo) {o : Out (Int × State)} {h : Hist} (hr : Runs (Core.open rt a Core.init) o h) :
    h = [] ∧ ∃ st, o = .ok (1, st) := by
  obtain ⟨h1, st, h2, _⟩ := C05_open rt a Core.init env o h hnew rfl ((C87_exempt hnew hl).2 (.inl ho)) (by simp [hrel]) hr
  exact ⟨h1, st, h2⟩

/-- C87: a command whose output is to be logged is started only if it is exempt for another reason or a pair approved. -/
theorem C87_paired {s : Sudoers} {r : Request} {l : Logging} (_hs : s.logging r = some l) (ho : l.output = true)
    {rt : Rt} {a : OpenArgs} {env : IoEnv} (hnew : IoEnv.new rt a = some (.ok env))
    (hl : l.ToldIn a.commandInfo) (hcmd : env.commandInfo.command ≠ []) {st : State} {h : Hist}
    (hr : Runs (Core.open rt a Core.init) (.ok (1, st)) h) :
    ExemptAnyway env (.ofMap env.pluginOptions) ∨ ∃ fd, ApprovedSession env fd h := by
  obtain ⟨env', h1, _, h3⟩ := C01_first_open_partial rt a st h hr
  rw [hnew] at h1
  simp only [Option.some.injEq, Except.ok.injEq] at h1
  subst h1
  by_cases hx : SessionExempt env
  · rcases (C87_exempt hnew hl).1 hx with h | h
    · simp [ho] at h
    · exact .inl h
  · exact .inr (h3 hcmd hx)

/-! ### What sudoers says -/

theorem add_output {t : Tags} {tags : List Tag} (h1 : Tag.logOutput ∉ tags) (h2 : Tag.nologOutput ∉ tags) :
    (tags.foldl Tags.add t).output = t.output := by
  induction tags generalizing t with
  | nil => rfl
  | cons x xs ih =>
    simp only [List.mem_cons, not_or] at h1 h2
    rw [List.foldl_cons, ih h1.2 h2.2]
    cases x <;> simp_all [Tags.add]

theorem add_output_no {t : Tags} {tags : List Tag} (b : Bool)
    (h1 : (if b then Tag.logOutput else .nologOutput) ∉ tags) (ht : t.output ≠ some b) :
    (tags.foldl Tags.add t).output ≠ some b := by
  induction tags generalizing t with
  | nil => exact ht
  | cons x xs ih =>
    simp only [List.mem_cons, not_or] at h1
    refine ih h1.2 ?_
    cases b <;> cases x <;> simp_all [Tags.add]

theorem add_input_no {t : Tags} {tags : List Tag} (h1 : Tag.logInput ∉ tags) (ht : t.input ≠ some true) :
    (tags.foldl Tags.add t).input ≠ some true := by
  induction tags generalizing t with
  | nil => exact ht
  | cons x xs ih =>
    simp only [List.mem_cons, not_or] at h1
    refine ih h1.2 ?_
    cases x <;> simp_all [Tags.add]

theorem inForce_output_no (b : Bool) : ∀ {cs : List CmndSpec} {t : Tags},
    (∀ c ∈ cs, (if b then Tag.logOutput else .nologOutput) ∉ c.tags) → t.output ≠ some b →
    ∀ x ∈ inForce t cs, x.1.output ≠ some b
  | [], _, _, _, x, hx => by simp [inForce] at hx
  | c :: cs, t, h, ht, x, hx => by
    have h1 := add_output_no b (h c (.head _)) ht
    simp only [inForce, List.mem_cons] at hx
    rcases hx with rfl | hx
    · exact h1
    · exact inForce_output_no b (fun c hc => h c (.tail _ hc)) h1 x hx

theorem inForce_input_no : ∀ {cs : List CmndSpec} {t : Tags},
    (∀ c ∈ cs, Tag.logInput ∉ c.tags) → t.input ≠ some true → ∀ x ∈ inForce t cs, x.1.input ≠ some true
  | [], _, _, _, x, hx => by simp [inForce] at hx
  | c :: cs, t, h, ht, x, hx => by
    have h1 := add_input_no (h c (.head _)) ht
    simp only [inForce, List.mem_cons] at hx
    rcases hx with rfl | hx
    · exact h1
    · exact inForce_input_no (fun c hc => h c (.tail _ hc)) h1 x hx

theorem inForce_output {b : Option Bool} : ∀ {cs : List CmndSpec} {t : Tags},
    (∀ c ∈ cs, Tag.logOutput ∉ c.tags ∧ Tag.nologOutput ∉ c.tags) → t.output = b → ∀ x ∈ inForce t cs, x.1.output = b
  | [], _, _, _, x, hx => by simp [inForce] at hx
  | c :: cs, t, h, ht, x, hx => by
    have h1 := (add_output (t := t) (h c (.head _)).1 (h c (.head _)).2).trans ht
    simp only [inForce, List.mem_cons] at hx
    rcases hx with rfl | hx
    · exact h1
    · exact inForce_output (fun c hc => h c (.tail _ hc)) h1 x hx

theorem mem_inForce : ∀ {cs : List CmndSpec} {t : Tags} {x}, x ∈ inForce t cs → x.2 ∈ cs
  | [], _, _, h => by simp [inForce] at h
  | c :: cs, t, x, h => by
    simp only [inForce, List.mem_cons] at h
    rcases h with rfl | h
    · exact .head _
    · exact .tail _ (mem_inForce h)

theorem inForce_mem : ∀ {cs : List CmndSpec} {t : Tags} {c}, c ∈ cs → ∃ u, (u, c) ∈ inForce t cs
  | c :: cs, t, _, .head _ => ⟨_, .head _⟩
  | c :: cs, t, d, .tail _ h => by
    obtain ⟨u, hu⟩ := inForce_mem (t := c.tags.foldl Tags.add t) h
    exact ⟨u, .tail _ hu⟩

theorem logging_inv {s : Sudoers} {r : Request} {l : Logging} (h : s.logging r = some l) :
    ∃ u ∈ s.specs, ∃ x ∈ inForce {} u.cmnds, l = ⟨x.1.output.getD s.logOutput, x.1.input.getD s.logInput⟩ := by
  unfold Sudoers.logging at h
  split at h
  · simp at h
  · rename_i t c hx
    have hm := List.mem_of_getLast? hx
    rw [List.mem_flatMap] at hm
    obtain ⟨u, hu, hf⟩ := hm
    unfold UserSpec.found at hf
    split at hf
    · rw [List.mem_filter] at hf
      split at h
      · simp at h
      · simp only [Option.some.injEq] at h
        exact ⟨u, hu, _, hf.1, h.symm⟩
    · simp at hf

/-- C87: by default sudoers wants no output logged: without `Defaults log_output` and `LOG_OUTPUT` every command that is
allowed is allowed without it (and so without a pair, `C87_unpaired`). -/
theorem C87_default {s : Sudoers} (hd : s.logOutput = false) (ht : ∀ u ∈ s.specs, ¬ u.Has .logOutput) {r : Request}
    {l : Logging} (hs : s.logging r = some l) : l.output = false := by
  obtain ⟨u, hu, x, hx, rfl⟩ := logging_inv hs
  have := inForce_output_no true (cs := u.cmnds) (t := {}) (fun c hc h => ht u hu ⟨c, hc, by simpa using h⟩) (by simp) x hx
  rcases ho : x.1.output with _ | _ | _
  · simpa using hd
  · rfl
  · exact absurd ho this

/-- With `Defaults log_output` and no `NOLOG_OUTPUT`, the output of every command is logged. -/
theorem C87_everything {s : Sudoers} (hd : s.logOutput = true) (ht : ∀ u ∈ s.specs, ¬ u.Has .nologOutput) {r : Request}
    {l : Logging} (hs : s.logging r = some l) : l.output = true := by
  obtain ⟨u, hu, x, hx, rfl⟩ := logging_inv hs
  have := inForce_output_no false (cs := u.cmnds) (t := {}) (fun c hc h => ht u hu ⟨c, hc, by simpa using h⟩) (by simp) x hx
  rcases ho : x.1.output with _ | _ | _
  · simpa using hd
  · exact absurd ho this
  · rfl

/-- The last specification decides about the commands that it lists, and the others about the rest. -/
theorem logging_last {s : Sudoers} {u : UserSpec} {r : Request} :
    ({ s with specs := s.specs ++ [u] } : Sudoers).logging r =
      match (u.found r).getLast? with
      | some (t, c) => if c.neg then none else some ⟨t.output.getD s.logOutput, t.input.getD s.logInput⟩
      | none        => s.logging r := by
  unfold Sudoers.logging
  simp only [List.flatMap_append, List.flatMap_cons, List.flatMap_nil, List.append_nil, List.getLast?_append]
  rcases (u.found r).getLast? with _ | ⟨t, c⟩ <;> simp

theorem found_tagged {who : List Who} {tag : Tag} {b : Bool} (htag : tag = if b then .logOutput else .nologOutput)
    {c : Cmnd} {cs : List Cmnd} {r : Request} :
    (((⟨who, ⟨[tag], false, c⟩ :: cs.map ({ cmnd := · })⟩ : UserSpec).found r) = [] ↔
      ¬ ((∃ w ∈ who, w.covers r) ∧ ∃ d ∈ c :: cs, d.covers r)) ∧
    ∀ x ∈ (⟨who, ⟨[tag], false, c⟩ :: cs.map ({ cmnd := · })⟩ : UserSpec).found r,
      x.2.neg = false ∧ x.1.output = some b ∧ x.1.input = none := by
  have h0 : ∀ x ∈ inForce {} (⟨[tag], false, c⟩ :: cs.map ({ cmnd := · })),
      x.2.neg = false ∧ x.1.output = some b ∧ x.1.input = none := by
    have h1 : (Tags.add {} tag).output = some b ∧ (Tags.add {} tag).input = none := by
      subst htag; cases b <;> simp [Tags.add]
    have h2 : ∀ (cs : List Cmnd) (t : Tags), ∀ x ∈ inForce t (cs.map ({ cmnd := · })), x.2.neg = false ∧ x.1 = t := by
      intro cs
      induction cs with
      | nil => intro t x hx; simp [inForce] at hx
      | cons d ds ih =>
        intro t x hx
        simp only [List.map_cons, inForce, List.foldl_nil, List.mem_cons] at hx
        rcases hx with rfl | hx
        · exact ⟨rfl, rfl⟩
        · exact ih t x hx
    intro x hx
    simp only [inForce, List.foldl_cons, List.foldl_nil, List.mem_cons] at hx
    rcases hx with rfl | hx
    · exact ⟨rfl, h1⟩
    · obtain ⟨h3, h4⟩ := h2 cs _ x hx
      rw [h4]
      exact ⟨h3, h1⟩
  constructor
  · unfold UserSpec.found
    split
    · rename_i hw
      rw [List.any_eq_true] at hw
      rw [List.filter_eq_nil_iff]
      constructor
      · rintro h ⟨_, d, hd, hcov⟩
        rcases List.mem_cons.1 hd with rfl | hd
        · obtain ⟨u, hu⟩ := inForce_mem (t := {}) (cs := ⟨[tag], false, d⟩ :: cs.map ({ cmnd := · })) (.head _)
          exact h _ hu hcov
        · obtain ⟨u, hu⟩ := inForce_mem (t := {}) (cs := ⟨[tag], false, c⟩ :: cs.map ({ cmnd := · }))
            (List.mem_cons_of_mem _ (List.mem_map_of_mem hd))
          exact h _ hu hcov
      · rintro h x hx hcov
        refine h ⟨hw, ?_⟩
        rcases List.mem_cons.1 (mem_inForce hx) with hx | hx
        · exact ⟨c, .head _, by rw [hx] at hcov; exact hcov⟩
        · obtain ⟨d, hd, hd'⟩ := List.mem_map.1 hx
          exact ⟨d, .tail _ hd, by rw [← hd'] at hcov; exact hcov⟩
    · rename_i hw
      rw [List.any_eq_true] at hw
      simp only [true_iff]
      exact fun h => hw h.1
  · intro x hx
    unfold UserSpec.found at hx
    split at hx
    · exact h0 x (List.mem_filter.1 hx).1
    · simp at hx

/-- C87: everything is logged by default, and the last line opts out of individual commands, `who … NOLOG_OUTPUT: c, …`:
these commands are allowed to these users without logging, and all other commands, and to all other users, only with logging. -/
theorem C87_opt_out {s : Sudoers} (hd : s.logOutput = true) (ht : ∀ u ∈ s.specs, ¬ u.Has .nologOutput)
    (who : List Who) (c : Cmnd) (cs : List Cmnd) (r : Request) :
    let s' : Sudoers := { s with specs := s.specs ++ [⟨who, ⟨[.nologOutput], false, c⟩ :: cs.map ({ cmnd := · })⟩] }
    ((∃ w ∈ who, w.covers r) ∧ (∃ d ∈ c :: cs, d.covers r) → s'.logging r = some ⟨false, s.logInput⟩) ∧
    (¬ ((∃ w ∈ who, w.covers r) ∧ ∃ d ∈ c :: cs, d.covers r) →
      s'.logging r = s.logging r ∧ ∀ l, s.logging r = some l → l.output = true) := by
  intro s'
  obtain ⟨h1, h2⟩ := found_tagged (who := who) (tag := .nologOutput) (b := false) (by simp) (c := c) (cs := cs) (r := r)
  have h3 : s'.logging r = _ := logging_last
  constructor
  · intro hm
    rcases hf : ((⟨who, ⟨[.nologOutput], false, c⟩ :: cs.map ({ cmnd := · })⟩ : UserSpec).found r).getLast? with _ | ⟨t, e⟩
    · rw [List.getLast?_eq_none_iff] at hf
      exact absurd hm (h1.1 hf)
    · obtain ⟨h4, h5, h6⟩ := h2 _ (List.mem_of_getLast? hf)
      simp only at h4 h5 h6
      rw [h3, hf]
      simp [h4, h5, h6]
  · intro hm
    rw [h3, h1.2 hm]
    exact ⟨rfl, fun l hl => C87_everything hd ht hl⟩

/-- C87: nothing is logged by default, and the last line opts into individual commands, `who … LOG_OUTPUT: c, …`: these
commands are allowed to these users with logging, and all other commands, and to all other users, without. -/
theorem C87_opt_in {s : Sudoers} (hd : s.logOutput = false) (ht : ∀ u ∈ s.specs, ¬ u.Has .logOutput)
    (who : List Who) (c : Cmnd) (cs : List Cmnd) (r : Request) :
    let s' : Sudoers := { s with specs := s.specs ++ [⟨who, ⟨[.logOutput], false, c⟩ :: cs.map ({ cmnd := · })⟩] }
    ((∃ w ∈ who, w.covers r) ∧ (∃ d ∈ c :: cs, d.covers r) → s'.logging r = some ⟨true, s.logInput⟩) ∧
    (¬ ((∃ w ∈ who, w.covers r) ∧ ∃ d ∈ c :: cs, d.covers r) →
      s'.logging r = s.logging r ∧ ∀ l, s.logging r = some l → l.output = false) := by
  intro s'
  obtain ⟨h1, h2⟩ := found_tagged (who := who) (tag := .logOutput) (b := true) (by simp) (c := c) (cs := cs) (r := r)
  have h3 : s'.logging r = _ := logging_last
  constructor
  · intro hm
    rcases hf : ((⟨who, ⟨[.logOutput], false, c⟩ :: cs.map ({ cmnd := · })⟩ : UserSpec).found r).getLast? with _ | ⟨t, e⟩
    · rw [List.getLast?_eq_none_iff] at hf
      exact absurd hm (h1.1 hf)
    · obtain ⟨h4, h5, h6⟩ := h2 _ (List.mem_of_getLast? hf)
      simp only at h4 h5 h6
      rw [h3, hf]
      simp [h4, h5, h6]
  · intro hm
    rw [h3, h1.2 hm]
    exact ⟨rfl, fun l hl => C87_default hd ht hl⟩

/-! ### Redirected input -/

theorem running_state {rt : Rt} {st st' : State} {t : List Act} (hr : Running rt st t (some st')) : st' = st := by
  generalize hs : some st' = s at hr
  induction hr generalizing st' with
  | nil => simpa using hs
  | pass _ hc h2 ih =>
    simp only [Option.some.injEq] at hs
    subst hs
    rw [step_log_state (.inl hc) h2]
    exact ih rfl
  | stop => simp at hs

/-- C87: a sudoers without `log_input` and `LOG_INPUT`, like both examples of the README, does not want input logged; -/
theorem C87_no_input {s : Sudoers} (hd : s.logInput = false) (ht : ∀ u ∈ s.specs, ¬ u.Has .logInput) {r : Request}
    {l : Logging} (hs : s.logging r = some l) : l.input = false := by
  obtain ⟨u, hu, x, hx, rfl⟩ := logging_inv hs
  have := inForce_input_no (cs := u.cmnds) (t := {}) (fun c hc h => ht u hu ⟨c, hc, h⟩) (by simp) x hx
  rcases ho : x.1.input with _ | _ | _
  · simpa using hd
  · rfl
  · exact absurd ho this

/-- C87: and then every paired session can be piped to: whatever arrives on a redirected standard input is let through. -/
theorem C87_piped {s : Sudoers} (hd : s.logInput = false) (ht : ∀ u ∈ s.specs, ¬ u.Has .logInput) {r : Request}
    {l : Logging} (hs : s.logging r = some l) {rt : Rt} {a : OpenArgs} {env : IoEnv}
    (hnew : IoEnv.new rt a = some (.ok env)) (hl : l.ToldIn a.commandInfo) (hcmd : env.commandInfo.command ≠ []) {st : State}
    {h : Hist} (hr : Runs (Core.open rt a Core.init) (.ok (1, st)) h) {t : List Act} {st' : State}
    (hrun : Running rt st t (some st')) (buf : Bytes) :
    Core.step rt (.log .stdin buf) st' = pure (1, st') := by
  obtain ⟨p, rfl, _⟩ := fresh_open_stored hr hnew hcmd
  obtain rfl := running_state hrun
  refine step_quietly trivial ⟨rfl, fun _ _ => ?_⟩
  rw [(C87_hints hnew hl).2.2.2.1, C87_no_input hd ht hs]

/-- C87: with `log_input` as well, redirected input of a paired session is refused. -/
theorem C87_refused {l : Logging} (hi : l.input = true) {rt : Rt} {a : OpenArgs} {env : IoEnv}
    (hnew : IoEnv.new rt a = some (.ok env)) (hl : l.ToldIn a.commandInfo) (hx : ¬ SessionExempt env) {st : State}
    {h : Hist} (hr : Runs (Core.open rt a Core.init) (.ok (1, st)) h) {t : List Act} {st' : State}
    (hrun : Running rt st t (some st')) {buf : Bytes} {n : Int} {st'' : State} {h' : Hist}
    (hs : Runs (Core.step rt (.log .stdin buf) st') (.ok (n, st'')) h') : n = 0 := by
  obtain rfl := running_state hrun
  obtain ⟨env', h1, h2, _⟩ := C01_first_open_partial rt a st' h hr
  rw [hnew] at h1
  simp only [Option.some.injEq, Except.ok.injEq] at h1
  subst h1
  exact (C21_stdin_refused_partial rt _ st' st'' env buf n h' (Exec.nil.snoc (c := .open a) hr) h2 hx
    ((C87_hints hnew hl).2.2.2.1.trans hi) hs).1

/-! ### The examples of the README, and the shipped file -/

/-- README: `Defaults log_output`, `%wheel ALL = (ALL) NOLOG_OUTPUT: /bin/cat, /bin/ls`, after a line that allows everything
to everybody in the group. -/
def optOut : Sudoers where
  logOutput := true
  specs := [⟨[.group (b! "wheel")], [{ cmnd := .all }]⟩,
    ⟨[.group (b! "wheel")], [⟨[.nologOutput], false, .path (b! "/bin/cat")⟩, { cmnd := .path (b! "/bin/ls") }]⟩]

/-- README: `%wheel ALL = (ALL) LOG_OUTPUT: /usr/bin/visudo`. -/
def optIn : Sudoers where
  specs := [⟨[.group (b! "wheel")], [{ cmnd := .all }]⟩,
    ⟨[.group (b! "wheel")], [⟨[.logOutput], false, .path (b! "/usr/bin/visudo")⟩]⟩]

/-- sample/etc/sudoers.d/sudo_pair: `nobody ALL = (: games) NOPASSWD: LOG_OUTPUT: ALL`. -/
def shippedSudoers : Sudoers where
  specs := [⟨[.user (b! "nobody")], [⟨[.other, .logOutput], false, .all⟩]⟩]

example : optOut.logging ⟨b! "u", [b! "wheel"], b! "/bin/cat"⟩ = some ⟨false, false⟩ ∧
    optOut.logging ⟨b! "u", [b! "wheel"], b! "/bin/ls"⟩ = some ⟨false, false⟩ ∧
    optOut.logging ⟨b! "u", [b! "wheel"], b! "/bin/sh"⟩ = some ⟨true, false⟩ ∧
    optOut.logging ⟨b! "v", [b! "users"], b! "/bin/ls"⟩ = none := by decide

example : optIn.logging ⟨b! "u", [b! "wheel"], b! "/usr/bin/visudo"⟩ = some ⟨true, false⟩ ∧
    optIn.logging ⟨b! "u", [b! "wheel"], b! "/bin/sh"⟩ = some ⟨false, false⟩ := by decide

example : shippedSudoers.logging ⟨b! "nobody", [b! "nogroup"], b! "/bin/sh"⟩ = some ⟨true, false⟩ := by decide

/-- The lists of the examples are those of `C87_opt_out` and `C87_opt_in`. -/
example (r : Request) (h : (b! "wheel") ∈ r.groups) (hc : r.command = b! "/bin/ls") :
    optOut.logging r = some ⟨false, false⟩ :=
  (C87_opt_out (s := { optOut with specs := [⟨[.group (b! "wheel")], [{ cmnd := .all }]⟩] }) rfl
    (by simp [UserSpec.Has]) [.group (b! "wheel")] (.path (b! "/bin/cat")) [.path (b! "/bin/ls")] r).1
    ⟨by simpa [Who.covers] using h, by simp [Cmnd.covers, hc]⟩

theorem toldIn_noStdin : Logging.ToldIn ⟨true, false⟩ noStdinArgs.commandInfo := by
  have key : ∀ (k : Bytes) (b : Bool), (OptionMap.fromRaw noStdinArgs.commandInfo).getBytes k = (if b then some (b! "true") else none) →
      Told noStdinArgs.commandInfo k b := by
    intro k b h v
    rw [← C29_option_vector, h]
    cases b <;> simp [eq_comm]
  exact ⟨key _ _ (by decide +kernel), key _ _ (by decide +kernel), key _ _ (by decide +kernel), key _ _ (by decide +kernel),
    key _ _ (by decide +kernel)⟩

/-- Non-vacuity: a paired session with a sudoers as in the README is piped to: the pair approves, the data arrives, and the
command gets it. -/
example :
    let t := frontend sampleRt noStdinArgs [.log .stdin (b! "rm -rf /"), .log .ttyout (b! "$ ")] (List.replicate 60 (coop 121))
    SudoSession sampleRt noStdinArgs t ∧ shown .stdin t = b! "rm -rf /" ∧ shown .ttyout t = b! "$ " ∧
    ((IoEnv.new sampleRt noStdinArgs).bind Except.toOption).map
      (fun env => ((Pair.ofEnv env).isExempt false, env.commandInfo.command)) = some (some false, b! "/bin/ls") := by
  refine ⟨frontend_session _ _ _ _ (by simp [Call.isLog]), ?_⟩
  decide +kernel

/-- `sudo -g games /bin/sh` by `nobody`, as the shipped sudoers allows, with the line of sample/Makefile in sudo.conf. -/
def gamesArgs : OpenArgs := { sampleArgs with
  settings := some [b! "plugin_dir=/p", b! "plugin_path=/p/sudo_pair.so", b! "progname=sudo", b! "runas_group=games"]
  userInfo := some [b! "cwd=/", b! "egid=0", b! "euid=0", b! "gid=65534", b! "groups=65534",
    b! "host=h", b! "pgid=41", b! "pid=42", b! "ppid=40", b! "uid=65534", b! "user=nobody"]
  commandInfo := some [b! "command=/bin/sh", b! "runas_uid=65534", b! "runas_gid=60", b! "runas_groups=60,65534",
    b! "iolog_stdout=true", b! "iolog_stderr=true", b! "iolog_ttyout=true"]
  argv := [b! "sh"]
  pluginOptions := some [b! "gids_enforced=65534"] }

/-- The shipped sample session is paired, on a socket that the group `games` may write to; and it can be piped to. -/
example :
    let t := frontend sampleRt gamesArgs [.log .stdin (b! "rm")] (List.replicate 60 (coop 121))
    SudoSession sampleRt gamesArgs t ∧ shown .stdin t = b! "rm" ∧
    ((sysOf t).filterMap fun | ⟨.chown _ u g, _⟩ => some (u, g) | _ => none) = [(4294967295, 60)] ∧
    ((sysOf t).filterMap fun | ⟨.chmod _ m, _⟩ => some m | _ => none) = [0o020] := by
  refine ⟨frontend_session _ _ _ _ (by simp [Call.isLog]), ?_⟩
  decide +kernel

end SudoPair
