import Verif.Props.Session
import Verif.Spec.Mirror
import Verif.Props.Text
/-
What the pair sees: C05 (log callbacks), C18, C19, C20, C21, C22.
-/
namespace SudoPair
open Spec Core

theorem winsizeSeq_eq (l c : Nat) : Pair.winsizeSeq l c = resize l c := by
  unfold Pair.winsizeSeq resize
  rw [decNat_eq_decimal, decNat_eq_decimal]
  rfl

/-! ### Single callbacks in a paired session -/

theorem delivered_prints {h : Hist} (hp : Prints h) (fd : Nat) : delivered fd h = [] :=
  delivered_of_sent (fun e he => sent_quiet (hp.quiet e he) fd)

theorem not_fails_of_prints {h : Hist} (hp : Prints h) : ∀ e ∈ h, ¬ Fails e :=
  fun e he => not_fails_of_quiet (hp.quiet e he)

/-- One mirroring callback of a connected session. -/
structure MirrorRun (fd : Nat) (buf : Bytes) (st : State) (o : Out (Int × State)) (h : Hist) : Prop where
  ret : o = .ok (1, st) ∨ o = .ok (0, st) ∨ o = .killed
  pre : delivered fd h <+: buf
  others : ∀ fd', fd' ≠ fd → delivered fd' h = []
  yes : o = .ok (1, st) → delivered fd h = buf ∧ ∀ e ∈ h, ¬ Fails e
  no : o = .ok (0, st) → ∃ e ∈ h, Fails e ∨ Overcount e

theorem delivered_other {fd fd' : Nat} {h : Hist} (hc : ∀ e ∈ h, WriteCall fd e.call) (hne : fd' ≠ fd) :
    delivered fd' h = [] := by
  refine delivered_of_sent (fun e he => ?_)
  have := hc e he
  rcases e with ⟨c, r⟩
  cases c <;> first | exact this.elim | rfl | skip
  simp only [WriteCall] at this
  subst this
  rcases r with n | _ | _ <;> simp [sent, hne.symm]

/-- Attach the slots to an outcome. -/
def withSt (st : State) : Out Int → Out (Int × State)
  | .ok r => .ok (r, st)
  | .panic => .panic
  | .killed => .killed

theorem mirror_of_logRun {p : Pair} {fd : Nat} {buf : Bytes} {o h} {st : State} (hs : p.socket = some fd)
    (hl : LogRun (p.logOutput buf) o h) :
    MirrorRun fd buf st (withSt st o) h := by
  have key : ∀ {o h}, Runs (p.logOutput buf) o h → ∃ o', WroteAll fd buf o' h ∧
      ((o' = .ok true ∧ o = .ok (.ok ())) ∨ (o' = .ok false ∧ o = .ok (.error .sessionTerminated)) ∨
       (o' = .panic ∧ o = .panic) ∨ (o' = .killed ∧ o = .killed)) := by
    intro o h hr
    rcases logOutput_runs hr with ⟨hn, _⟩ | ⟨fd', o', hfd, hw, ho⟩
    · rw [hs] at hn; simp at hn
    · rw [hs] at hfd; simp only [Option.some.injEq] at hfd; subst hfd
      exact ⟨o', hw, ho⟩
  unfold withSt
  cases hl with
  | ok hr =>
    obtain ⟨o', hw, ⟨rfl, _⟩ | ⟨_, h2⟩ | ⟨_, h2⟩ | ⟨_, h2⟩⟩ := key hr
    · exact ⟨by simp, hw.pre, fun _ hne => delivered_other hw.calls hne, fun _ => hw.yes rfl, by simp⟩
    all_goals simp at h2
  | err hr hp =>
    obtain ⟨o', hw, ⟨_, h2⟩ | ⟨rfl, _⟩ | ⟨_, h2⟩ | ⟨_, h2⟩⟩ := key hr
    · simp at h2
    · refine ⟨by simp, ?_, fun _ hne => ?_, by simp, fun _ => ?_⟩
      · rw [delivered_append, delivered_prints hp, List.append_nil]; exact hw.pre
      · rw [delivered_append, delivered_prints hp, List.append_nil]; exact delivered_other hw.calls hne
      · obtain ⟨⟨e, h1, h2⟩, _⟩ := hw.no rfl
        exact ⟨e, List.mem_append_left _ h1, Or.inl h2⟩
    all_goals simp at h2
  | errKilled hr hp =>
    obtain ⟨o', hw, _⟩ := key hr
    refine ⟨by simp, ?_, fun _ hne => ?_, by simp, by simp⟩
    · rw [delivered_append, delivered_prints hp, List.append_nil]; exact hw.pre
    · rw [delivered_append, delivered_prints hp, List.append_nil]; exact delivered_other hw.calls hne
  | panic hr =>
    obtain ⟨o', hw, ⟨_, h2⟩ | ⟨_, h2⟩ | ⟨rfl, _⟩ | ⟨_, h2⟩⟩ := key hr
    · simp at h2
    · simp at h2
    · refine ⟨by simp, hw.pre, fun _ hne => delivered_other hw.calls hne, by simp, fun _ => ?_⟩
      obtain ⟨e, h1, h2⟩ := hw.panic rfl
      exact ⟨e, h1, Or.inr h2⟩
    · simp at h2
  | killed hr =>
    obtain ⟨o', hw, _⟩ := key hr
    exact ⟨by simp, hw.pre, fun _ hne => delivered_other hw.calls hne, by simp, by simp⟩

theorem mirror_silent {fd : Nat} {st : State} {o : Out (Int × State)} {h : Hist}
    (hr : o = .ok (1, st) ∨ o = .killed) (hp : Prints h) : MirrorRun fd [] st o h := by
  refine ⟨by rcases hr with h | h <;> simp [h], by rw [delivered_prints hp]; exact List.nil_prefix, fun _ _ => delivered_prints hp _,
    fun _ => ⟨delivered_prints hp fd, not_fails_of_prints hp⟩, ?_⟩
  rcases hr with rfl | rfl <;> simp

theorem runs_lift {m : M Int} {st : State} {o h}
    (hr : Runs (do let r ← m; pure (r, st)) o h) :
    ∃ o', Runs m o' h ∧ o = withSt st o' := by
  rcases step_bind_runs hr with ⟨r', rfl, k⟩ | ⟨rfl, k⟩ | ⟨rfl, k⟩
  · exact ⟨_, k, rfl⟩
  · exact ⟨_, k, rfl⟩
  · exact ⟨_, k, rfl⟩

/-- Every callback other than `open`, `close`, and `log_stdin`. -/
theorem step_mirror {rt : Rt} {env : IoEnv} {p : Pair} {fd : Nat} {c : Call} {o h}
    (hs : p.socket = some fd) (hc : c.isLog) (hin : ∀ buf, c ≠ .log .stdin buf)
    (hr : Runs (Core.step rt c ⟨some env, some p⟩) o h) :
    MirrorRun fd (payload env.commandInfo c) ⟨some env, some p⟩ o h := by
  rcases c with _ | _ | _ | ⟨f, buf⟩ | ⟨l, cc⟩ <;> simp [Call.isLog] at hc
  · obtain ⟨o', k, rfl⟩ := runs_lift hr
    inv log_some_runs k with ⟨hh, rfl, rfl⟩ | ⟨hh, k⟩
    · have : payload env.commandInfo (.log f buf) = [] := by
        cases f <;> simp_all [payload, Core.hint]
      rw [this]
      exact mirror_silent (Or.inl rfl) (by simp [Prints])
    · cases f with
      | stdin => exact absurd rfl (hin buf)
      | ttyin =>
        change LogRun (pure (.ok ())) o' h at k
        have : o' = .ok 1 ∧ h = [] := by
          cases k with
          | ok k => exact ⟨rfl, k.pure.2⟩
          | err k _ => have := k.pure.1; simp at this
          | errKilled k _ => have := k.pure.1; simp at this
          | panic k => have := k.pure.1; simp at this
          | killed k => have := k.pure.1; simp at this
        obtain ⟨rfl, rfl⟩ := this
        exact mirror_silent (Or.inl rfl) (by simp [Prints])
      | ttyout =>
        have : payload env.commandInfo (.log .ttyout buf) = buf := if_pos hh
        rw [this]; exact mirror_of_logRun hs k
      | stdout =>
        have : payload env.commandInfo (.log .stdout buf) = buf := if_pos hh
        rw [this]; exact mirror_of_logRun hs k
      | stderr =>
        have : payload env.commandInfo (.log .stderr buf) = buf := if_pos hh
        rw [this]; exact mirror_of_logRun hs k
  · obtain ⟨o', k, rfl⟩ := runs_lift hr
    have k := changeWinsize_some_runs k
    rw [winsizeSeq_eq] at k
    exact mirror_of_logRun hs k

/-- `log_stdin` never sends anything. -/
theorem step_stdin {rt : Rt} {env : IoEnv} {p : Pair} {buf : Bytes} {o h}
    (hr : Runs (Core.step rt (.log .stdin buf) ⟨some env, some p⟩) o h) :
    Prints h ∧
    (env.commandInfo.iologStdin = false → o = .ok (1, ⟨some env, some p⟩) ∧ h = []) ∧
    (env.commandInfo.iologStdin = true → p.isExempt rt.debug = some false →
      o = .ok (0, ⟨some env, some p⟩) ∨ o = .killed) ∧
    (p.isExempt rt.debug = some true → o = .ok (1, ⟨some env, some p⟩) ∧ h = []) := by
  obtain ⟨o', k, rfl⟩ := runs_lift hr
  rcases log_some_runs k with ⟨hh, rfl, rfl⟩ | ⟨hh, kl⟩
  · change env.commandInfo.iologStdin = false at hh
    exact ⟨by simp [Prints], by simp [withSt], by simp [hh], by simp [withSt]⟩
  · change env.commandInfo.iologStdin = true at hh
    have hp : ∀ {o h}, Runs (p.logStdin rt) o h → h = [] ∧
        ((p.isExempt rt.debug = none ∧ o = .panic) ∨ (p.isExempt rt.debug = some true ∧ o = .ok (.ok ())) ∨
         (p.isExempt rt.debug = some false ∧ o = .ok (.error .stdinRedirected))) := by
      intro o h hr
      unfold Pair.logStdin at hr
      inv Runs.ofOption_bind hr with ⟨k1, rfl, rfl⟩ | ⟨b, k1, hr⟩
      · exact ⟨rfl, Or.inl ⟨k1, rfl⟩⟩
      · cases b with
        | true => obtain ⟨rfl, rfl⟩ := Runs.pure hr; exact ⟨rfl, Or.inr (Or.inl ⟨k1, rfl⟩)⟩
        | false => obtain ⟨rfl, rfl⟩ := Runs.pure hr; exact ⟨rfl, Or.inr (Or.inr ⟨k1, rfl⟩)⟩
    clear k hr
    unfold withSt
    cases kl with
    | ok k =>
      obtain ⟨rfl, ⟨_, k2⟩ | ⟨k1, _⟩ | ⟨_, k2⟩⟩ := hp k
      · simp at k2
      · exact ⟨by simp [Prints], by simp, by simp [k1], by simp⟩
      · simp at k2
    | err k hq =>
      obtain ⟨rfl, ⟨_, k2⟩ | ⟨_, k2⟩ | ⟨k1, _⟩⟩ := hp k
      · simp at k2
      · simp at k2
      · exact ⟨by simpa using hq, by simp [hh], by simp, by simp [k1]⟩
    | errKilled k hq =>
      obtain ⟨rfl, ⟨_, k2⟩ | ⟨_, k2⟩ | ⟨k1, _⟩⟩ := hp k
      · simp at k2
      · simp at k2
      · exact ⟨by simpa using hq, by simp [hh], by simp, by simp [k1]⟩
    | panic k =>
      obtain ⟨rfl, ⟨k1, _⟩ | ⟨_, k2⟩ | ⟨_, k2⟩⟩ := hp k
      · exact ⟨by simp [Prints], by simp [hh], by simp, by simp [k1]⟩
      · simp at k2
      · simp at k2
    | killed k =>
      obtain ⟨rfl, ⟨_, k2⟩ | ⟨_, k2⟩ | ⟨_, k2⟩⟩ := hp k <;> simp at k2

/-! ### C19 -/

/-- C19: output callback in a session connected to a pair, for a facility sudo logs.  It returns 1 only
if the socket accepted exactly the payload and nothing failed; it returns 0 only because of a failure
(or an impossible answer of the kernel); it never ends in any other way than that or being killed.
And in every case only an initial piece of the payload went out, to nobody but the pair. -/
theorem C19_output (rt : Rt) (env : IoEnv) (p : Pair) (fd : Nat) (f : Facility) (buf : Bytes)
    (o : Out (Int × State)) (h : Hist) (hs : p.socket = some fd)
    (hf : (f = .ttyout ∧ env.commandInfo.iologTtyout = true) ∨
      (f = .stdout ∧ env.commandInfo.iologStdout = true) ∨
      (f = .stderr ∧ env.commandInfo.iologStderr = true))
    (hr : Runs (Core.step rt (.log f buf) ⟨some env, some p⟩) o h) :
    (o = .ok (1, ⟨some env, some p⟩) ∨ o = .ok (0, ⟨some env, some p⟩) ∨ o = .killed) ∧
    (o = .ok (1, ⟨some env, some p⟩) → delivered fd h = buf ∧ ∀ e ∈ h, ¬ Fails e) ∧
    ((∃ e ∈ h, Fails e) → o = .ok (0, ⟨some env, some p⟩) ∨ o = .killed) ∧
    (o = .ok (0, ⟨some env, some p⟩) → ∃ e ∈ h, Fails e ∨ Overcount e) ∧
    delivered fd h <+: buf ∧ (∀ fd', fd' ≠ fd → delivered fd' h = []) := by
  have hp : payload env.commandInfo (.log f buf) = buf := by
    rcases hf with ⟨rfl, h⟩ | ⟨rfl, h⟩ | ⟨rfl, h⟩ <;> simp [payload, h]
  have hn : ∀ b, Call.log f buf ≠ .log .stdin b := by
    rcases hf with ⟨rfl, h⟩ | ⟨rfl, h⟩ | ⟨rfl, h⟩ <;> simp
  have k := step_mirror hs (c := .log f buf) (by simp [Call.isLog]) hn hr
  rw [hp] at k
  refine ⟨k.ret, k.yes, ?_, k.no, k.pre, k.others⟩
  rintro ⟨e, h1, h2⟩
  rcases k.ret with h3 | h3 | h3
  · exact absurd h2 ((k.yes h3).2 e h1)
  · exact Or.inl h3
  · exact Or.inr h3

/-- The pair has hung up. -/
def brokenPipe : Answer
  | .sockWrite _ _ => .fail
  | c => coop 121 c

/-- Non-vacuity: mirrored output, and a pair that has gone. -/
example : retOf (Core.step sampleRt (.log .ttyout (b! "x"))
      ⟨some sampleEnv, some { samplePair with socket := some 8 }⟩ (List.replicate 9 (coop 121))).1 = some 1 ∧
    retOf (Core.step sampleRt (.log .ttyout (b! "x"))
      ⟨some sampleEnv, some { samplePair with socket := some 8 }⟩ (List.replicate 30 brokenPipe)).1 = some 0 := by
  decide +kernel

/-! ### C22 -/

/-- C22: `change_winsize` in a connected session sends exactly `ESC[8;lines;colst` (an initial piece of
it if it fails), whatever the logging hints are. -/
theorem C22_resize (rt : Rt) (env : IoEnv) (p : Pair) (fd l c : Nat) (o : Out (Int × State)) (h : Hist)
    (hs : p.socket = some fd) (hr : Runs (Core.step rt (.changeWinsize l c) ⟨some env, some p⟩) o h) :
    (o = .ok (1, ⟨some env, some p⟩) ∨ o = .ok (0, ⟨some env, some p⟩) ∨ o = .killed) ∧
    (o = .ok (1, ⟨some env, some p⟩) → delivered fd h = resize l c ∧ ∀ e ∈ h, ¬ Fails e) ∧
    ((∃ e ∈ h, Fails e) → o = .ok (0, ⟨some env, some p⟩) ∨ o = .killed) ∧
    (o = .ok (0, ⟨some env, some p⟩) → ∃ e ∈ h, Fails e ∨ Overcount e) ∧
    delivered fd h <+: resize l c ∧ (∀ fd', fd' ≠ fd → delivered fd' h = []) := by
  have k := step_mirror hs (c := .changeWinsize l c) (by simp [Call.isLog]) (by simp) hr
  refine ⟨k.ret, k.yes, ?_, k.no, k.pre, k.others⟩
  rintro ⟨e, h1, h2⟩
  rcases k.ret with h3 | h3 | h3
  · exact absurd h2 ((k.yes h3).2 e h1)
  · exact Or.inl h3
  · exact Or.inr h3

/-- C22: distinct window sizes give distinct sequences. -/
theorem C22_injective (l c l' c' : Nat) (h : resize l c = resize l' c') : l = l' ∧ c = c' := by
  unfold resize at h
  rw [← decNat_eq_decimal, ← decNat_eq_decimal, ← decNat_eq_decimal, ← decNat_eq_decimal] at h
  simp only [List.append_assoc] at h
  have h1 := List.append_cancel_left (List.append_cancel_left h)
  have key : ∀ {s : UInt8} {a b x y : Bytes}, s ∉ a → s ∉ b → a ++ s :: x = b ++ s :: y → a = b ∧ x = y := by
    intro s a
    induction a with
    | nil =>
      intro b x y _ hb h
      cases b with
      | nil => simpa using h
      | cons z b =>
        simp only [List.nil_append, List.cons_append, List.cons.injEq] at h
        exact absurd (by simp [h.1]) hb
    | cons w a ih =>
      intro b x y ha hb h
      cases b with
      | nil =>
        simp only [List.nil_append, List.cons_append, List.cons.injEq] at h
        exact absurd (by simp [h.1]) ha
      | cons z b =>
        simp only [List.cons_append, List.cons.injEq] at h
        obtain ⟨rfl, h⟩ := h
        have := ih (fun h => ha (by simp [h])) (fun h => hb (by simp [h])) h
        exact ⟨by rw [this.1], this.2⟩
  obtain ⟨h2, h3⟩ := key (s := 59) (decNat_no (by unfold IsDigit; decide) l)
    (decNat_no (by unfold IsDigit; decide) l') h1
  obtain ⟨h4, _⟩ := key (s := 116) (decNat_no (by unfold IsDigit; decide) c)
    (decNat_no (by unfold IsDigit; decide) c') h3
  exact ⟨decNat_injective h2, decNat_injective h4⟩

example : resize 24 80 = [0x1b] ++ b! "[8;24;80t" := by decide +kernel

/-! ### C20 -/

/-- C20: for a facility whose hint is off the callback returns 1 and does nothing at all. -/
theorem C20_hint_off (rt : Rt) (env : IoEnv) (p : Pair) (f : Facility) (buf : Bytes) (s : Sched)
    (hoff : match f with
      | .ttyin  => env.commandInfo.iologTtyin = false
      | .ttyout => env.commandInfo.iologTtyout = false
      | .stdin  => env.commandInfo.iologStdin = false
      | .stdout => env.commandInfo.iologStdout = false
      | .stderr => env.commandInfo.iologStderr = false) :
    (Core.log rt f buf ⟨some env, some p⟩ s).1 = .ok 1 ∧
    (Core.log rt f buf ⟨some env, some p⟩ s).2.1 = [] := by
  have hh : Core.hint env.commandInfo f = false := by cases f <;> exact hoff
  rcases log_some_runs (rt := rt) (f := f) (buf := buf) (env := env) (p := p)
    ⟨s, rfl, rfl⟩ with ⟨_, h1, h2⟩ | ⟨h1, _⟩
  · exact ⟨h1, h2⟩
  · rw [hh] at h1; simp at h1

/-- C20 (partial): for an output facility with its hint on, a callback of a connected session that
returns 1 has sent exactly the payload.

Missing from the full statement: `log_ttyin` and `log_stdin`.  Input is never mirrored, even if the
hint is on (`C20_counterexample`); what is done with redirected standard input is C21. -/
theorem C20_hint_on_partial (rt : Rt) (env : IoEnv) (p : Pair) (fd : Nat) (f : Facility) (buf : Bytes)
    (h : Hist) (hs : p.socket = some fd)
    (hf : (f = .ttyout ∧ env.commandInfo.iologTtyout = true) ∨
      (f = .stdout ∧ env.commandInfo.iologStdout = true) ∨
      (f = .stderr ∧ env.commandInfo.iologStderr = true))
    (hr : Runs (Core.log rt f buf ⟨some env, some p⟩) (.ok 1) h) : delivered fd h = buf := by
  have : Runs (Core.step rt (.log f buf) ⟨some env, some p⟩) (.ok (1, ⟨some env, some p⟩)) h := by
    obtain ⟨s, h1, h2⟩ := hr
    refine ⟨s, ?_⟩
    show ((Core.log rt f buf ⟨some env, some p⟩ >>= fun r => pure (r, (⟨some env, some p⟩ : State))) s).1 = _ ∧ _
    rw [show Core.step rt (.log f buf) ⟨some env, some p⟩ s =
      (Core.log rt f buf ⟨some env, some p⟩ >>= fun r => pure (r, (⟨some env, some p⟩ : State))) s from rfl]
    rcases hc : Core.log rt f buf ⟨some env, some p⟩ s with ⟨o, h', s'⟩
    rw [hc] at h1 h2
    subst h1 h2
    rw [M.bind_ok hc]
    exact ⟨rfl, List.append_nil _⟩
  exact ((C19_output rt env p fd f buf _ h hs hf this).2.1 rfl).1

/-- C20 is false for terminal input: the hint is on, the callback returns 1, nothing is sent. -/
theorem C20_counterexample : sampleEnv.commandInfo.iologTtyin = true ∧
    Runs (Core.log sampleRt .ttyin (b! "x") ⟨some sampleEnv, some { samplePair with socket := some 8 }⟩)
      (.ok 1) [] := by
  refine ⟨by decide +kernel, [], ?_, ?_⟩
  · decide +kernel
  · have : (Core.log sampleRt .ttyin (b! "x")
        ⟨some sampleEnv, some { samplePair with socket := some 8 }⟩ []).2.1.length = 0 := by decide +kernel
    exact List.eq_nil_of_length_eq_zero this

/-! ### C21 -/

/-- C21 (partial): in every reachable state of a session that is not exempt, if sudo is told to log
standard input then `log_stdin` returns 0 and sends nothing, for any payload.

Missing from the full statement: sessions whose `iolog_stdin` hint is off.  There the callback returns
1 before the plugin is asked, `C21_counterexample`. -/
theorem C21_stdin_refused_partial (rt : Rt) (tr : List Item) (st st' : State) (env : IoEnv) (buf : Bytes)
    (r : Int) (h : Hist) (hx : Exec rt Core.init tr st) (henv : st.env = some env)
    (hne : ¬ SessionExempt env) (hh : env.commandInfo.iologStdin = true)
    (hr : Runs (Core.step rt (.log .stdin buf) st) (.ok (r, st')) h) :
    r = 0 ∧ ∀ fd, delivered fd h = [] := by
  cases hp : st.plugin with
  | none =>
    obtain ⟨h1, rfl⟩ := step_log_none (c := .log .stdin buf) trivial (Or.inr hp) hr
    simp only [Out.ok.injEq, Prod.mk.injEq] at h1
    exact ⟨h1.1, fun fd => rfl⟩
  | some p =>
    obtain ⟨env', a, h', he', _, _, hs⟩ := (session_inv hx).2 p hp
    rw [henv] at he'
    simp only [Option.some.injEq] at he'
    subst he'
    obtain ⟨e, pl⟩ := st
    simp only at henv hp
    subst henv hp
    have k := step_stdin hr
    rcases hs with ⟨_, _, h1, _⟩ | ⟨fd, _, h1, _, _⟩
    · exact absurd h1 hne
    · refine ⟨?_, fun fd => delivered_prints k.1 fd⟩
      rcases k.2.2.1 hh h1 with h2 | h2
      · simp only [Out.ok.injEq, Prod.mk.injEq] at h2; exact h2.1
      · simp at h2

/-- Non-vacuity: the sample session logs stdin and is not exempt; the callback returns 0. -/
example : retsOf (Core.run sampleRt [.open sampleArgs, .log .stdin (b! "x")] Core.init
    (List.replicate 80 (coop 121))).1 = some [1, 0] := by decide +kernel

/-- The sample session without `iolog_stdin`. -/
def noStdinArgs : OpenArgs := { sampleArgs with
  commandInfo := some [b! "command=/bin/ls", b! "runas_uid=0", b! "runas_gid=0",
    b! "runas_groups=0", b! "iolog_stdout=true", b! "iolog_stderr=true", b! "iolog_ttyout=true"] }

/-- C21 is false without the hint: an approved session that is not exempt accepts redirected input. -/
theorem C21_counterexample : ∃ env, IoEnv.new sampleRt noStdinArgs = some (.ok env) ∧
    ¬ SessionExempt env ∧
    retsOf (Core.run sampleRt [.open noStdinArgs, .log .stdin (b! "rm -rf /")] Core.init
      (List.replicate 80 (coop 121))).1 = some [1, 1] := by
  have h5 : ((IoEnv.new sampleRt noStdinArgs).bind Except.toOption).map
      (fun env => (Pair.ofEnv env).isExempt false) = some (some false) := by
    decide +kernel
  rcases hn : IoEnv.new sampleRt noStdinArgs with _ | (e | env) <;> rw [hn] at h5
  · simp at h5
  · simp [Except.toOption] at h5
  · simp only [Except.toOption, Option.bind_some, Option.map_some, Option.some.injEq] at h5
    refine ⟨env, rfl, fun hx => ?_, by decide +kernel⟩
    have h7 := (C04_release (Pair.ofEnv env)).2 hx
    rw [h5] at h7; simp at h7

/-! ### C18 -/

/-- C18: in a connected session, after any sequence of callbacks (no `open` or `close` among them) whose
logging callbacks all returned 1, the pair has received exactly the concatenation of the payloads, in
order, and nobody else has received anything. -/
theorem C18_callbacks (rt : Rt) (env : IoEnv) (p : Pair) (fd : Nat) (tr : List Item) (st : State)
    (hs : p.socket = some fd) (hx : Exec rt ⟨some env, some p⟩ tr st)
    (hc : ∀ x ∈ tr, x.call.isLog ∨ x.call = .showVersion)
    (hret : ∀ x ∈ tr, x.call.isLog → x.ret = 1) :
    st = ⟨some env, some p⟩ ∧
    delivered fd (tr.flatMap Item.hist) = tr.flatMap (fun x => payload env.commandInfo x.call) ∧
    ∀ fd', fd' ≠ fd → delivered fd' (tr.flatMap Item.hist) = [] := by
  induction hx with
  | nil => exact ⟨rfl, rfl, fun _ _ => rfl⟩
  | snoc h1 h2 ih =>
    rename_i tr st' c r st'' h
    obtain ⟨rfl, ih1, ih2⟩ := ih (fun x hx => hc x (by simp [hx])) (fun x hx => hret x (by simp [hx]))
    have hc' := hc ⟨c, r, h⟩ (by simp)
    have hr' := hret ⟨c, r, h⟩ (by simp)
    simp only at hc' hr'
    obtain rfl := step_log_state hc' h2
    have key : delivered fd h = payload env.commandInfo c ∧ ∀ fd', fd' ≠ fd → delivered fd' h = [] := by
      rcases hc' with hl | rfl
      · obtain rfl := hr' hl
        by_cases hin : ∃ buf, c = .log .stdin buf
        · obtain ⟨buf, rfl⟩ := hin
          have k := step_stdin h2
          exact ⟨delivered_prints k.1 fd, fun fd' _ => delivered_prints k.1 fd'⟩
        · have k := step_mirror hs hl (fun b hb => hin ⟨b, hb⟩) h2
          exact ⟨(k.yes rfl).1, k.others⟩
      · obtain ⟨o', k, _⟩ := runs_lift h2
        have := (showVersion_runs k).1
        exact ⟨delivered_prints this fd, fun fd' _ => delivered_prints this fd'⟩
    refine ⟨rfl, ?_, fun fd' hne => ?_⟩
    · simp only [List.flatMap_append, List.flatMap_cons, List.flatMap_nil, List.append_nil,
        delivered_append, ih1, key.1]
    · simp only [List.flatMap_append, List.flatMap_cons, List.flatMap_nil, List.append_nil,
        delivered_append, ih2 fd' hne, key.2 fd' hne]

/-- C18: and however the next logging callback ends (refusal, or the process being killed in the middle
of it), what the pair has received is an initial piece of what it should have received. -/
theorem C18_prefix (rt : Rt) (env : IoEnv) (p : Pair) (fd : Nat) (tr : List Item) (st : State)
    (c : Call) (o : Out (Int × State)) (h : Hist)
    (hs : p.socket = some fd) (hx : Exec rt ⟨some env, some p⟩ tr st)
    (hc : ∀ x ∈ tr, x.call.isLog ∨ x.call = .showVersion)
    (hret : ∀ x ∈ tr, x.call.isLog → x.ret = 1) (hl : c.isLog) (hr : Runs (Core.step rt c st) o h) :
    delivered fd (tr.flatMap Item.hist ++ h) <+:
      tr.flatMap (fun x => payload env.commandInfo x.call) ++ payload env.commandInfo c := by
  obtain ⟨rfl, h1, _⟩ := C18_callbacks rt env p fd tr st hs hx hc hret
  rw [delivered_append, h1, List.prefix_append_right_inj]
  by_cases hin : ∃ buf, c = .log .stdin buf
  · obtain ⟨buf, rfl⟩ := hin
    rw [delivered_prints (step_stdin hr).1 fd]; exact List.nil_prefix
  · exact (step_mirror hs hl (fun b hb => hin ⟨b, hb⟩) hr).pre

theorem guardedRead_delivered {fd n : Nat} {o h} (hg : Guarded (.sockRead fd n) o h) (fd' : Nat) :
    delivered fd' h = [] := by
  cases hg <;> simp [delivered, sent]

/-- What an approving prompt phase delivers. -/
theorem promptRun_delivered {p : Pair} {fd h} (hp : PromptRun p fd (.ok (.ok ())) h) :
    ∃ (r : Option Bytes) (b : UInt8) (x y : Bytes),
      (⟨.readFile p.options.pairPromptPath, r⟩ : Ev) ∈ h ∧
      delivered fd h = p.promptText r ++ (x ++ y) ∧ x <+: [b] ∧ y <+: [10] ∧ (b = 121 ∨ b = 89) ∧
      (∃ e ∈ h, Read1 b fd e) ∧ ((∀ e ∈ h, ¬ Fails e) → x = [b] ∧ y = [10]) := by
  generalize ho : (Out.ok (Except.ok ()) : Out (Except ErrorKind Unit)) = o at hp
  cases hp with
  | answered hw hf hg hb hw1 hw2 =>
    rename_i r h1 h2 h3 res b h4 c h5 d
    have hv : b = 121 ∨ b = 89 := by
      simp only [Out.ok.injEq, Pair.verdict] at ho
      split at ho
      · assumption
      · simp at ho
    obtain ⟨_, hf2, _, _⟩ := flush_facts hf fd
    refine ⟨r, b, delivered fd h4, delivered fd h5, by simp, ?_, hw1.pre, hw2.pre, hv, ?_, ?_⟩
    · have h0 : delivered fd ((⟨.readFile p.options.pairPromptPath, r⟩ : Ev) ::
          (h1 ++ (h2 ++ (h3 ++ (h4 ++ h5))))) = delivered fd (h1 ++ (h2 ++ (h3 ++ (h4 ++ h5)))) := rfl
      rw [h0]
      simp only [delivered_append, (hw.yes rfl).1, hf2, guardedRead_delivered hg fd, List.nil_append]
    · obtain ⟨g1, g2, rfl, _, _⟩ := guardedRead_ok hg
      exact ⟨⟨.sockRead fd 1, res⟩, by simp,
        read1_of_response hb (by rcases hv with rfl | rfl <;> decide)⟩
    · intro hnf
      refine ⟨?_, ?_⟩
      · cases c with
        | true => exact (hw1.yes rfl).1
        | false =>
          obtain ⟨⟨e, k1, k2⟩, _⟩ := hw1.no rfl
          exact absurd k2 (hnf e (by simp [k1]))
      · cases d with
        | true => exact (hw2.yes rfl).1
        | false =>
          obtain ⟨⟨e, k1, k2⟩, _⟩ := hw2.no rfl
          exact absurd k2 (hnf e (by simp [k1]))
  | writeStop hw ha => cases ha <;> simp at ho
  | echoStop hw hf hg hb hw1 ha => cases ha <;> simp at ho
  | nlStop hw hf hg hb hw1 hw2 ha => cases ha <;> simp at ho
  | _ => simp at ho

/-- What a whole approved `open` delivers to the new connection. -/
theorem pairOpen_delivered {rt env q h} (hx : (Pair.ofEnv env).isExempt rt.debug ≠ some true)
    (hp : PairOpen rt (Pair.ofEnv env) (.ok (.ok q)) h) :
    ∃ (fd : Nat) (template prompt : Bytes) (b : UInt8) (x y : Bytes),
      q = { Pair.ofEnv env with socket := some fd } ∧
      TemplateRead (optionsOf env).pairPromptPath builtinPairPrompt h template ∧
      Expands 37 (promptVars (Pair.ofEnv env)) template prompt ∧
      delivered fd h = prompt ++ (x ++ y) ∧ x <+: [b] ∧ y <+: [10] ∧ (b = 121 ∨ b = 89) ∧
      (∃ e ∈ h, Read1 b fd e) ∧ ((∀ e ∈ h, ¬ Fails e) → x = [b] ∧ y = [10]) := by
  generalize ho : Out.ok (Except.ok q) = o at hp
  cases hp with
  | exempt h => exact absurd h hx
  | approved hx0 hb0 hl hc hr =>
    rename_i h0 u h1 conn h2
    simp only [Out.ok.injEq, Except.ok.injEq] at ho
    obtain ⟨mode, _, hs⟩ := hc
    have hset := sockOpen_setup (open'_runs hs)
    obtain ⟨r, b, x, y, k1, k2, k3, k4, k5, ⟨e, k6, k7⟩, k8⟩ := promptRun_delivered (remotePairPrompt_runs hr)
    refine ⟨conn.fd, r.getD defaultPairPrompt, (Pair.ofEnv env).promptText r, b, x, y, ho, ?_, ?_, ?_, k3, k4, k5,
      ⟨e, by simp [k6], k7⟩, fun hnf => k8 (fun e he => hnf e (by simp [he]))⟩
    · cases r with
      | none =>
        exact Or.inr ⟨List.mem_append_right _ (List.mem_append_right _ k1), rfl⟩
      | some t => exact Or.inl (List.mem_append_right _ (List.mem_append_right _ k1))
    · exact (C28_variables (Pair.ofEnv env) _ _).1 rfl
    · rw [delivered_append, delivered_append, k2,
        delivered_of_sent (fun e he => sent_quiet ((localPairPrompt_quiet _ _).of_runs hl e he) _),
        delivered_of_sent (fun e he => sent_setup (hset e he) _)]
      rfl
  | _ => simp at ho

/-- What `open` stored, if nothing had been opened before. -/
theorem fresh_open_stored {rt : Rt} {a : OpenArgs} {env : IoEnv} {st : State} {h : Hist}
    (hr : Runs (Core.open rt a ⟨none, none⟩) (.ok (1, st)) h) (hnew : IoEnv.new rt a = some (.ok env))
    (hcmd : env.commandInfo.command ≠ []) :
    ∃ p, st = ⟨some env, some p⟩ ∧ PairOpen rt (Pair.ofEnv env) (.ok (.ok p)) h := by
  generalize ho : Out.ok ((1 : Int), st) = o at hr
  cases coreOpen_runs hr with
  | empty k1 k2 =>
    rw [hnew] at k1; simp only [Option.some.injEq, Except.ok.injEq] at k1; subst k1
    exact absurd k2 hcmd
  | accepted k1 k2 k3 k4 =>
    rename_i p
    rw [hnew] at k1; simp only [Option.some.injEq, Except.ok.injEq] at k1; subst k1
    simp only [Out.ok.injEq, Prod.mk.injEq, true_and] at ho
    exact ⟨p, ho, k3⟩
  | again _ _ _ k => simp at k
  | _ => simp at ho

/-- C18 (partial), whole sessions: an `open` that returned 1 for a session that is not exempt, followed
by callbacks that all returned 1.  The pair has received: the expanded prompt, the echo of the reply
byte and a newline, then exactly the payloads in order.

Missing from the full statement: if an operation on the socket failed *during the echo*, the echo of
the reply or the newline may be missing (`x`, `y` are then initial pieces of them): the plugin ignores
errors of these two writes.  `C18_counterexample` shows that this happens. -/
theorem C18_session_partial (rt : Rt) (tr0 tr : List Item) (a : OpenArgs) (h0 : Hist) (st : State)
    (env : IoEnv) (hx : Exec rt Core.init (tr0 ++ ⟨.open a, 1, h0⟩ :: tr) st) (hn : NothingOpened tr0)
    (hnew : IoEnv.new rt a = some (.ok env)) (hcmd : env.commandInfo.command ≠ [])
    (hne : ¬ SessionExempt env)
    (hc : ∀ x ∈ tr, x.call.isLog ∨ x.call = .showVersion)
    (hret : ∀ x ∈ tr, x.call.isLog → x.ret = 1) :
    ∃ (fd : Nat) (template prompt : Bytes) (b : UInt8) (x y : Bytes),
      TemplateRead (optionsOf env).pairPromptPath builtinPairPrompt h0 template ∧
      Expands 37 (promptVars (Pair.ofEnv env)) template prompt ∧
      (b = 121 ∨ b = 89) ∧ (∃ e ∈ h0, Read1 b fd e) ∧ x <+: [b] ∧ y <+: [10] ∧
      delivered fd (h0 ++ tr.flatMap Item.hist) =
        prompt ++ x ++ y ++ tr.flatMap (fun x => payload env.commandInfo x.call) ∧
      ((∀ e ∈ h0, ¬ Fails e) → x = [b] ∧ y = [10]) := by
  obtain ⟨st1, h1, h2⟩ := hx.split
  obtain ⟨st2, h3, h4⟩ := h2.inv_cons
  have he1 := env_none_of_nothingOpened h1 hn
  have hp1 : st1.plugin = none :=
    plugin_none_of_noSession h1 (fun t1 a' h' t2 ht => hn t1 a' 1 h' t2 ht)
  obtain ⟨e1, p1⟩ := st1
  simp only at he1 hp1
  subst he1 hp1
  obtain ⟨p, rfl, hpo⟩ := fresh_open_stored h3 hnew hcmd
  obtain ⟨fd, t, prompt, b, x, y, rfl, k1, k2, k3, k4, k5, k6, k7, k8⟩ :=
    pairOpen_delivered (not_exempt_of hne) hpo
  refine ⟨fd, t, prompt, b, x, y, k1, k2, k6, k7, k4, k5, ?_, k8⟩
  rw [delivered_append, k3, (C18_callbacks rt env _ fd tr st rfl h4 hc hret).2.1]
  simp

/-- Non-vacuity: the sample session, mirroring two chunks of output and a resize; input and a message on
a facility that is not logged are not mirrored. -/
example :
    let r := Core.run sampleRt [.open sampleArgs, .log .ttyout (b! "ab"), .log .ttyin (b! "secret"),
      .changeWinsize 24 80, .log .stderr (b! "c")] Core.init (List.replicate 90 (coop 121))
    retsOf r.1 = some [1, 1, 1, 1, 1] ∧
    delivered 8 r.2.1 = b! "u@h:/home/u$ sudo ls -l\ny/n? [n]: y\nab\x1b[8;24;80tc" := by
  decide +kernel

/-- The pair's connection refuses the echo of the reply (only). -/
def noEcho : Answer
  | .sockWrite _ [121] => .fail
  | c => coop 121 c

/-- C18 is false without the restriction: the echo of the reply gets lost, and yet `open` and all
callbacks return 1. -/
theorem C18_counterexample :
    let r := Core.run sampleRt [.open sampleArgs, .log .ttyout (b! "x")] Core.init (List.replicate 90 noEcho)
    retsOf r.1 = some [1, 1] ∧ ¬ (b! "y\nx" <:+ delivered 8 r.2.1) := by
  decide +kernel

/-! ### C05 (log callbacks) -/

/-- If an `open` has returned 1 since the last `close`, a session with a command is stored. -/
theorem stored_of_opened {rt tr st} (hx : Exec rt Core.init tr st) (ho : ∃ a h, OpenedBy tr a 1 h) :
    ∃ env, st.env = some env ∧ (env.commandInfo.command ≠ [] → st.plugin ≠ none) := by
  induction hx with
  | nil =>
    obtain ⟨a, h, tr1, tr2, ht, _⟩ := ho
    simp at ht
  | snoc h1 h2 ih =>
    rename_i tr st c r st' h
    have hprev : c ≠ .close → (∀ a, c ≠ .open a) → ∃ a h, OpenedBy tr a 1 h := by
      intro hc hno
      obtain ⟨a, h', tr1, tr2, ht, hnc⟩ := ho
      rcases List.eq_nil_or_concat tr2 with rfl | ⟨t', x, rfl⟩
      · obtain ⟨_, h3⟩ := List.append_inj' ht rfl
        simp only [List.cons.injEq, and_true, Item.mk.injEq] at h3
        exact absurd h3.1 (hno a)
      · rw [List.concat_eq_append, ← List.cons_append, ← List.append_assoc] at ht
        obtain ⟨h3, _⟩ := List.append_inj' ht rfl
        exact ⟨a, h', tr1, t', h3, fun x hx => hnc x (by simp [hx])⟩
    by_cases hl : c.isLog ∨ c = .showVersion
    · have hnc : c ≠ .close := by rintro rfl; simp [Call.isLog] at hl
      have hno : ∀ a, c ≠ .open a := by rintro a rfl; simp [Call.isLog] at hl
      obtain rfl := step_log_state hl h2
      exact ih (hprev hnc hno)
    · rcases c with a | _ | _ | _ | _ <;> simp [Call.isLog] at hl
      · change Runs (Core.open rt a st) (.ok (r, st')) h at h2
        -- what was true before stays true if `open` stores no plugin
        have hkeep : ∀ env0, st' = withEnv st env0 → (∃ a h, OpenedBy tr a 1 h) →
            ∃ env, st'.env = some env ∧ (env.commandInfo.command ≠ [] → st'.plugin ≠ none) := by
          intro env0 hst hex
          obtain ⟨env, k1, k2⟩ := ih hex
          subst hst
          exact ⟨env, by simp [effEnv, k1], k2⟩
        have hprev1 : r = -1 → ∃ a h, OpenedBy tr a 1 h := by
          rintro rfl
          obtain ⟨a', h', tr1, tr2, ht, hnc⟩ := ho
          rcases List.eq_nil_or_concat tr2 with rfl | ⟨t', x, rfl⟩
          · obtain ⟨_, h3⟩ := List.append_inj' ht rfl
            simp at h3
          · rw [List.concat_eq_append, ← List.cons_append, ← List.append_assoc] at ht
            obtain ⟨h3, _⟩ := List.append_inj' ht rfl
            exact ⟨a', h', tr1, t', h3, fun x hx => hnc x (by simp [hx])⟩
        generalize hoo : Out.ok (r, st') = o at h2
        cases coreOpen_runs h2 with
        | envPanic =>
          simp only [Out.ok.injEq, Prod.mk.injEq] at hoo
          obtain ⟨rfl, rfl⟩ := hoo; exact ih (hprev1 rfl)
        | envErr =>
          simp only [Out.ok.injEq, Prod.mk.injEq] at hoo
          obtain ⟨rfl, rfl⟩ := hoo; exact ih (hprev1 rfl)
        | empty k1 k2 =>
          simp only [Out.ok.injEq, Prod.mk.injEq] at hoo
          obtain ⟨rfl, rfl⟩ := hoo
          exact ⟨_, rfl, fun k => absurd k2 k⟩
        | panic =>
          simp only [Out.ok.injEq, Prod.mk.injEq] at hoo
          obtain ⟨rfl, rfl⟩ := hoo; exact hkeep _ rfl (hprev1 rfl)
        | refused =>
          simp only [Out.ok.injEq, Prod.mk.injEq] at hoo
          obtain ⟨rfl, rfl⟩ := hoo; exact hkeep _ rfl (hprev1 rfl)
        | accepted =>
          simp only [Out.ok.injEq, Prod.mk.injEq] at hoo
          obtain ⟨rfl, rfl⟩ := hoo
          exact ⟨_, rfl, by simp⟩
        | again _ _ _ k4 =>
          simp only [Out.ok.injEq, Prod.mk.injEq] at hoo
          obtain ⟨rfl, rfl⟩ := hoo
          exact ⟨_, rfl, by simp [k4]⟩
        | _ => simp at hoo
      · -- close: contradiction
        exfalso
        obtain ⟨a, h', tr1, tr2, ht, hnc⟩ := ho
        rcases List.eq_nil_or_concat tr2 with rfl | ⟨t', x, rfl⟩
        · obtain ⟨_, h3⟩ := List.append_inj' ht rfl
          simp at h3
        · rw [List.concat_eq_append, ← List.cons_append, ← List.append_assoc] at ht
          obtain ⟨_, h3⟩ := List.append_inj' ht rfl
          simp only [List.cons.injEq, and_true] at h3
          exact hnc x (by simp) (by rw [← h3])

/-- C05 (partial), log callbacks: in every reachable state of an exempt session with a command, for
which `open` has returned 1 since the last `close`, every log callback returns 1 and does nothing at
all, for every schedule.

Missing from the full statement: exempt sessions whose command path decodes to the empty path.
For these `open` returns 1 but stores no plugin, so that all log callbacks return 0,
`C05_counterexample`. -/
theorem C05_logs_partial (rt : Rt) (tr : List Item) (st : State) (env : IoEnv) (a : OpenArgs) (h : Hist)
    (c : Call) (s : Sched) (hx : Exec rt Core.init tr st) (ho : OpenedBy tr a 1 h)
    (henv : st.env = some env) (hex : SessionExempt env) (hcmd : env.commandInfo.command ≠ [])
    (hc : c.isLog) :
    (Core.step rt c st s).1 = .ok (1, st) ∧ (Core.step rt c st s).2.1 = [] := by
  obtain ⟨env', k1, k2⟩ := stored_of_opened hx ⟨a, h, ho⟩
  rw [henv] at k1
  simp only [Option.some.injEq] at k1
  subst k1
  obtain ⟨p, hp⟩ := Option.ne_none_iff_exists'.1 (k2 hcmd)
  obtain ⟨env', a', h', he', _, _, hs⟩ := (session_inv hx).2 p hp
  rw [henv] at he'
  simp only [Option.some.injEq] at he'
  subst he'
  rcases hs with ⟨hpe, hxp, _, _⟩ | ⟨fd, _, _, hn, _⟩
  · obtain ⟨e, q⟩ := st
    simp only at henv hp
    subst henv hp
    have hr : Runs (Core.step rt c ⟨some env, some p⟩) (Core.step rt c ⟨some env, some p⟩ s).1
      (Core.step rt c ⟨some env, some p⟩ s).2.1 := ⟨s, rfl, rfl⟩
    generalize (Core.step rt c ⟨some env, some p⟩ s).1 = o at hr ⊢
    generalize (Core.step rt c ⟨some env, some p⟩ s).2.1 = hh at hr ⊢
    have hns : p.socket = none := by rw [hpe]; rfl
    have key : ∀ {buf o h}, LogRun (p.logOutput buf) o h → o = .ok 1 ∧ h = [] := by
      intro buf o h hl
      have : ∀ {o h}, Runs (p.logOutput buf) o h → o = .ok (.ok ()) ∧ h = [] := by
        intro o h hr
        rcases logOutput_runs hr with ⟨_, k⟩ | ⟨fd, o', k, _⟩
        · exact k
        · rw [hns] at k; simp at k
      cases hl with
      | ok k => exact ⟨rfl, (this k).2⟩
      | err k _ => have := (this k).1; simp at this
      | errKilled k _ => have := (this k).1; simp at this
      | panic k => have := (this k).1; simp at this
      | killed k => have := (this k).1; simp at this
    rcases c with _ | _ | _ | ⟨f, buf⟩ | ⟨l, cc⟩ <;> simp [Call.isLog] at hc
    · by_cases hin : f = .stdin
      · subst hin; exact (step_stdin hr).2.2.2 hxp
      · obtain ⟨o', k, rfl⟩ := runs_lift hr
        rcases log_some_runs k with ⟨_, rfl, rfl⟩ | ⟨_, kl⟩
        · exact ⟨rfl, rfl⟩
        · clear k hr
          have : o' = .ok 1 ∧ hh = [] := by
            cases f with
            | stdin => exact absurd rfl hin
            | ttyin =>
              change LogRun (pure (.ok ())) o' hh at kl
              cases kl with
              | ok k => exact ⟨rfl, k.pure.2⟩
              | err k _ => have := k.pure.1; simp at this
              | errKilled k _ => have := k.pure.1; simp at this
              | panic k => have := k.pure.1; simp at this
              | killed k => have := k.pure.1; simp at this
            | ttyout => exact key kl
            | stdout => exact key kl
            | stderr => exact key kl
          obtain ⟨rfl, rfl⟩ := this
          exact ⟨rfl, rfl⟩
    · obtain ⟨o', k, rfl⟩ := runs_lift hr
      obtain ⟨rfl, rfl⟩ := key (changeWinsize_some_runs k)
      exact ⟨rfl, rfl⟩
  · exact absurd hex hn

/-- Non-vacuity: the exempt sample session. -/
example : retsOf (Core.run sampleRt [.open selfArgs, .log .ttyout (b! "x"), .log .stdin (b! "y"),
    .changeWinsize 1 2] Core.init []).1 = some [1, 1, 1, 1] := by decide +kernel

/-- An exempt session (the user runs as themselves) whose command name is not UTF-8. -/
def selfBadArgs : OpenArgs := { sampleArgs with
  commandInfo := some [b! "command=/bin/" ++ [0xff], b! "runas_uid=1000", b! "runas_gid=1000",
    b! "preserve_groups=true", b! "iolog_ttyout=true"] }

/-- C05 is false without the restriction: exempt, `open` returns 1, and then output is refused. -/
theorem C05_counterexample : ∃ env, IoEnv.new sampleRt selfBadArgs = some (.ok env) ∧ SessionExempt env ∧
    retsOf (Core.run sampleRt [.open selfBadArgs, .log .ttyout (b! "x")] Core.init []).1 = some [1, 0] := by
  have h5 : ((IoEnv.new sampleRt selfBadArgs).bind Except.toOption).map
      (fun env => (Pair.ofEnv env).isExempt false) = some (some true) := by
    decide +kernel
  rcases hn : IoEnv.new sampleRt selfBadArgs with _ | (e | env) <;> rw [hn] at h5
  · simp at h5
  · simp [Except.toOption] at h5
  · simp only [Except.toOption, Option.bind_some, Option.map_some, Option.some.injEq] at h5
    exact ⟨env, rfl, exempt_of h5, by decide +kernel⟩

end SudoPair
