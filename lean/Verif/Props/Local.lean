import Verif.Props.Effort
import Verif.Spec.Local
/-
C45: the local prompt.
-/
namespace SudoPair
open Spec

theorem onTty_append (a b : Hist) : onTty (a ++ b) = onTty a ++ onTty b := by simp [onTty]

/-- Runs of `write_all` on the terminal. -/
structure WroteTty (buf : Bytes) (o : Out Bool) (h : Hist) : Prop where
  calls : ∀ e ∈ h, ∃ f, e.call = .ttyWrite f ∧ f <:+ buf
  pre : onTty h <+: buf
  yes : o = .ok true → onTty h = buf
  no : o = .ok false → ∃ e ∈ h, TtyFails e
  panic : o = .panic → ∃ e ∈ h, Overcount e

theorem wroteTty_runs {buf o h} (hr : Runs (writeAll (fun b => M.sys (.ttyWrite b)) buf) o h) : WroteTty buf o h := by
  have key : wp (writeAll (fun b => M.sys (.ttyWrite b)) buf) (WroteTty buf) := by
    refine wp_writeAll (P := WroteTty) ⟨by simp, by simp [onTty], by simp [onTty], by simp, by simp⟩
      (fun buf _ => ⟨by simp, by simp [onTty], by simp, by simp, by simp⟩) ?_ buf
    intro buf hne
    refine wp_sys ⟨by simp, by simp [onTty], by simp, by simp, by simp⟩ ?_
    have tl : ∀ {r : WriteRes} {h' : Hist} {n : Nat},
        (∀ e ∈ h', ∃ f, Ev.call e = .ttyWrite f ∧ f <:+ buf.drop n) →
        ∀ e ∈ [(⟨.ttyWrite buf, r⟩ : Ev)] ++ h', ∃ f, e.call = .ttyWrite f ∧ f <:+ buf := by
      intro r h' n hh
      refine List.forall_mem_append.2 ⟨?_, fun e he => ?_⟩
      · simp
      · obtain ⟨f, h1, h2⟩ := hh e he
        exact ⟨f, h1, h2.trans (List.drop_suffix _ _)⟩
    have sent : ∀ n (h' : Hist), onTty ([(⟨.ttyWrite buf, .wrote n⟩ : Ev)] ++ h') = buf.take n ++ onTty h' := by
      intro n h'; simp [onTty, ttySent]
    have sent0 : ∀ (r : WriteRes) (h' : Hist), (r = .intr ∨ r = .fail) →
        onTty ([(⟨.ttyWrite buf, r⟩ : Ev)] ++ h') = onTty h' := by
      rintro r h' (rfl | rfl) <;> simp [onTty, ttySent]
    rintro ((_ | n) | _ | _)
    · exact ⟨by simp, by simp [onTty, ttySent], by simp, fun _ => ⟨_, List.mem_singleton.2 rfl, Or.inr rfl⟩, by simp⟩
    · refine ⟨fun hn o h' hp => ⟨tl hp.calls, ?_, ?_, ?_, ?_⟩, fun hlt => ⟨by simp, ?_, by simp, by simp, ?_⟩⟩
      · rw [sent]
        obtain ⟨t, ht⟩ := hp.pre
        exact ⟨t, by rw [List.append_assoc, ht, List.take_append_drop]⟩
      · intro ho
        rw [sent, hp.yes ho, List.take_append_drop]
      · intro ho
        obtain ⟨e, h1, h2⟩ := hp.no ho
        exact ⟨e, List.mem_append_right _ h1, h2⟩
      · intro ho
        obtain ⟨e, h1, h2⟩ := hp.panic ho
        exact ⟨e, List.mem_append_right _ h1, h2⟩
      · have := sent (n + 1) []
        rw [List.append_nil] at this
        rw [this]
        simp [onTty, List.take_prefix]
      · exact fun _ => ⟨_, List.mem_singleton.2 rfl, hlt⟩
    · intro o h' hp
      refine ⟨tl (n := 0) (by simpa using hp.calls), ?_, ?_, ?_, ?_⟩
      · rw [sent0 _ _ (Or.inl rfl)]; exact hp.pre
      · rw [sent0 _ _ (Or.inl rfl)]; exact hp.yes
      · intro ho
        obtain ⟨e, h1, h2⟩ := hp.no ho
        exact ⟨e, List.mem_append_right _ h1, h2⟩
      · intro ho
        obtain ⟨e, h1, h2⟩ := hp.panic ho
        exact ⟨e, List.mem_append_right _ h1, h2⟩
    · exact ⟨by simp, by simp [onTty, ttySent], by simp, fun _ => ⟨_, List.mem_singleton.2 rfl, Or.inl rfl⟩, by simp⟩
  exact wp_iff_runs.1 key o h hr

/-- Outcomes of `write_all` on printf: a panic needs an overcount, and the first call gets the whole text. -/
theorem printWriteAll_outcome {pf : PrintFacility} {buf : Bytes} {o h} (hr : Runs (pf.writeAll buf) o h) :
    (o = .panic → ∃ e ∈ h, Overcount e) ∧
    (o ≠ .killed → pf.hasPrintf = true → (0 : UInt8) ∉ buf → buf ≠ [] → ∃ r, (⟨.printf pf.level buf, r⟩ : Ev) ∈ h) := by
  have key : wp (pf.writeAll buf) fun o h => (o = .panic → ∃ e ∈ h, Overcount e) ∧
      (o ≠ .killed → pf.hasPrintf = true → (0 : UInt8) ∉ buf → buf ≠ [] → ∃ r, (⟨.printf pf.level buf, r⟩ : Ev) ∈ h) := by
    refine wp_writeAll (P := fun buf o h => (o = .panic → ∃ e ∈ h, Overcount e) ∧
      (o ≠ .killed → pf.hasPrintf = true → (0 : UInt8) ∉ buf → buf ≠ [] → ∃ r, (⟨.printf pf.level buf, r⟩ : Ev) ∈ h))
      ⟨by simp, by simp⟩ (by simp) ?_ buf
    intro buf hne
    unfold PrintFacility.write
    refine wp_ite (fun hp => wp_pure ?_) (fun hp => wp_ite (fun h0 => wp_pure ?_) (fun h0 => wp_sys ?_ ?_))
    · exact ⟨by simp, fun _ h => by simp [h] at hp⟩
    · exact ⟨by simp, fun _ _ h => absurd h0 h⟩
    · exact ⟨by simp, by simp⟩
    · have tl : ∀ {o : Out Bool} {r : WriteRes} {h' : Hist}, (o = .panic → ∃ e ∈ h', Overcount e) →
          (o = .panic → ∃ e ∈ [(⟨.printf pf.level buf, r⟩ : Ev)] ++ h', Overcount e) := by
        intro o r h' hh ho
        obtain ⟨e, h1, h2⟩ := hh ho
        exact ⟨e, List.mem_append_right _ h1, h2⟩
      rintro ((_ | n) | _ | _)
      · exact ⟨by simp, fun _ _ _ _ => ⟨_, List.mem_singleton.2 rfl⟩⟩
      · exact ⟨fun _ o h' hp => ⟨tl hp.1, fun _ _ _ _ => ⟨_, List.mem_append_left _ (List.mem_singleton.2 rfl)⟩⟩,
          fun hlt => ⟨fun _ => ⟨_, List.mem_singleton.2 rfl, hlt⟩, fun _ _ _ _ => ⟨_, List.mem_singleton.2 rfl⟩⟩⟩
      · exact fun o h' hp => ⟨tl hp.1, fun _ _ _ _ => ⟨_, List.mem_append_left _ (List.mem_singleton.2 rfl)⟩⟩
      · exact ⟨by simp, fun _ _ _ _ => ⟨_, List.mem_singleton.2 rfl⟩⟩
  exact wp_iff_runs.1 key o h hr

/-- Showing `text` to the user: on the terminal, and otherwise through printf. -/
structure Shows (p : Pair) (text : Bytes) (o : Out Unit) (h : Hist) : Prop where
  calls : ∀ e ∈ h, (∃ path, e.call = .ttyOpen path ∧ p.env.userInfo.tty = some path) ∨
    (∃ f, e.call = .ttyWrite f ∧ f <:+ text) ∨ (∃ f, e.call = .printf 3 f ∧ f <:+ text)
  pre : onTty h <+: text
  fallback : o = .ok () → onTty h = text ∨
    ((p.env.userInfo.tty = none ∨ ∃ e ∈ h, TtyFails e) ∧
      (p.env.hasPrintf = true → (0 : UInt8) ∉ text → text ≠ [] → ∃ r, (⟨.printf 3 text, r⟩ : Ev) ∈ h))
  panic : o = .panic → ∃ e ∈ h, Overcount e

theorem ttyPrompt_runs {p : Pair} {text : Bytes} {o h} (hr : Runs (p.ttyPrompt text) o h) :
    (∀ e ∈ h, (∃ path, e.call = .ttyOpen path ∧ p.env.userInfo.tty = some path) ∨
      (∃ f, e.call = .ttyWrite f ∧ f <:+ text)) ∧ onTty h <+: text ∧ (o = .ok true → onTty h = text) ∧
    (o = .ok false → p.env.userInfo.tty = none ∨ ∃ e ∈ h, TtyFails e) ∧ (o = .panic → ∃ e ∈ h, Overcount e) := by
  unfold Pair.ttyPrompt at hr
  cases htty : p.env.userInfo.tty with
  | none =>
    simp only [htty] at hr
    obtain ⟨rfl, rfl⟩ := hr.pure
    exact ⟨by simp, by simp [onTty], by simp, by simp, by simp⟩
  | some path =>
    simp only [htty] at hr
    inv Runs.sys_bind hr with ⟨rfl, rfl⟩ | ⟨r, h', hr, rfl⟩
    · exact ⟨by simp, by simp [onTty], by simp, by simp, by simp⟩
    · have e0 : onTty ((⟨.ttyOpen path, r⟩ : Ev) :: h') = onTty h' := by simp [onTty, ttySent]
      rw [e0]
      cases r with
      | false =>
        obtain ⟨rfl, rfl⟩ := hr.pure
        refine ⟨?_, by simp [onTty], by simp, fun _ => Or.inr ⟨_, List.mem_singleton.2 rfl, rfl⟩, by simp⟩
        intro e he
        rw [List.mem_singleton.1 he]
        exact Or.inl ⟨path, rfl, rfl⟩
      | true =>
        simp only [if_true] at hr
        have k := wroteTty_runs hr
        refine ⟨List.forall_mem_cons.2 ⟨Or.inl ⟨path, rfl, rfl⟩, fun e he => Or.inr (k.calls e he)⟩, k.pre, k.yes, ?_, ?_⟩
        · intro ho
          obtain ⟨e, h1, h2⟩ := k.no ho
          exact Or.inr ⟨e, List.mem_cons_of_mem _ h1, h2⟩
        · intro ho
          obtain ⟨e, h1, h2⟩ := k.panic ho
          exact ⟨e, List.mem_cons_of_mem _ h1, h2⟩

theorem onTty_prints {pf : PrintFacility} {buf : Bytes} {o h} (hr : Runs (pf.writeAll buf) o h) : onTty h = [] := by
  refine List.flatMap_eq_nil_iff.2 fun e he => ?_
  obtain ⟨f, h1, _⟩ := wp_iff_runs.1 (printWriteAll_calls pf buf) o h hr e he
  rcases e with ⟨c, r⟩
  simp only at h1
  subst h1
  rfl

/-- Runs of the local prompt: one attempt to read the configured file, then the expanded contents (of the
built-in prompt if the file could not be read) are shown. -/
theorem localPrompt_runs {p : Pair} {spec : TemplateSpec} {o h} (hr : Runs (p.localPairPrompt spec) o h) :
    (o = .killed ∧ h = []) ∨ ∃ (r : Option Bytes) (k : Hist), h = ⟨.readFile p.options.userPromptPath, r⟩ :: k ∧
      Shows p (spec.expand (r.getD defaultUserPrompt)) o k := by
  unfold Pair.localPairPrompt at hr
  inv Runs.sys_bind hr with ⟨rfl, rfl⟩ | ⟨r, h', hr, rfl⟩
  · exact Or.inl ⟨rfl, rfl⟩
  · refine Or.inr ⟨r, h', rfl, ?_⟩
    simp only at hr
    revert hr
    generalize spec.expand (Option.getD r defaultUserPrompt) = text
    intro hr
    inv Runs.bind hr with ⟨b, h1, h2, k1, hr, rfl⟩ | ⟨rfl, k1⟩ | ⟨rfl, k1⟩
    · obtain ⟨q1, q2, q3, q4, _⟩ := ttyPrompt_runs k1
      cases b with
      | true =>
        obtain ⟨rfl, rfl⟩ := hr.pure
        rw [List.append_nil]
        exact ⟨fun e he => (q1 e he).imp_right Or.inl, q2, fun _ => Or.inl (q3 rfl), by simp⟩
      | false =>
        simp only [Bool.false_eq_true, if_false] at hr
        have fin : ∀ {o' : Out Bool}, Runs ((PrintFacility.stderr p.env.hasPrintf).writeAll text) o' h2 →
            (o = .ok () → o' ≠ .killed) → (o = .panic → o' = .panic) → Shows p text o (h1 ++ h2) := by
          intro o' hw ho1 ho2
          obtain ⟨z1, z2⟩ := printWriteAll_outcome hw
          refine ⟨List.forall_mem_append.2 ⟨fun e he => (q1 e he).imp_right Or.inl, fun e he => ?_⟩, ?_, fun ho => Or.inr ⟨?_, ?_⟩, ?_⟩
          · obtain ⟨f, e1, e2, _⟩ := wp_iff_runs.1 (printWriteAll_calls _ text) o' h2 hw e he
            exact Or.inr (Or.inr ⟨f, e1, e2⟩)
          · rw [onTty_append, onTty_prints hw, List.append_nil]
            exact q2
          · rcases q4 rfl with h | ⟨e, h3, h4⟩
            · exact Or.inl h
            · exact Or.inr ⟨e, List.mem_append_left _ h3, h4⟩
          · intro a1 a2 a3
            obtain ⟨r, hr⟩ := z2 (ho1 ho) a1 a2 a3
            exact ⟨r, List.mem_append_right _ hr⟩
          · intro ho
            obtain ⟨e, h3, h4⟩ := z1 (ho2 ho)
            exact ⟨e, List.mem_append_right _ h3, h4⟩
        inv Runs.bind hr with ⟨b, h3, h4, k2, hr, rfl⟩ | ⟨rfl, k2⟩ | ⟨rfl, k2⟩
        · obtain ⟨rfl, rfl⟩ := hr.pure
          rw [List.append_nil] at fin ⊢
          exact fin k2 (by simp) (by simp)
        · exact fin k2 (by simp) (by simp)
        · exact fin k2 (by simp) (by simp)
    · obtain ⟨q1, q2, q3, q4, q5⟩ := ttyPrompt_runs k1
      exact ⟨fun e he => (q1 e he).imp_right Or.inl, q2, by simp, fun _ => q5 rfl⟩
    · obtain ⟨q1, q2, q3, q4, q5⟩ := ttyPrompt_runs k1
      exact ⟨fun e he => (q1 e he).imp_right Or.inl, q2, by simp, by simp⟩

/-! ### C45 -/

/-- C45, what is shown.  The text is the expansion of the configured file, or of the built-in prompt if
that cannot be read; it is put on the user's terminal, and if that fails handed to printf. -/
theorem C45_text {p : Pair} {o h} (hr : Runs (p.localPairPrompt p.templateSpec) o h) :
    (o = .killed ∧ h = []) ∨ ∃ template text, TemplateRead p.options.userPromptPath builtinUserPrompt h template ∧
      Expands 37 (promptVars p) template text ∧ onTty h <+: text ∧
      (o = .ok () → onTty h = text ∨ ((p.env.userInfo.tty = none ∨ ∃ e ∈ h, TtyFails e) ∧
        (p.env.hasPrintf = true → (0 : UInt8) ∉ text → text ≠ [] → ∃ r, (⟨.printf 3 text, r⟩ : Ev) ∈ h))) := by
  rcases localPrompt_runs hr with h | ⟨r, k, rfl, hs⟩
  · exact Or.inl h
  · refine Or.inr ⟨r.getD defaultUserPrompt, _, ?_, (C28_variables p _ _).1 rfl, ?_, fun ho => ?_⟩
    · cases r with
      | none => exact Or.inr ⟨List.mem_cons_self, rfl⟩
      | some t => exact Or.inl List.mem_cons_self
    · exact hs.pre
    · rcases hs.fallback ho with h | ⟨h1, h2⟩
      · exact Or.inl h
      · refine Or.inr ⟨h1.imp_right ?_, fun a1 a2 a3 => ?_⟩
        · rintro ⟨e, h3, h4⟩; exact ⟨e, List.mem_cons_of_mem _ h3, h4⟩
        · obtain ⟨r, h3⟩ := h2 a1 a2 a3
          exact ⟨r, List.mem_cons_of_mem _ h3⟩

/-- The full statement about the local prompt: whatever happens, it returns (or the process is killed or
blocked during it). -/
def C45Full : Prop := ∀ (p : Pair) (spec : TemplateSpec) o h, Runs (p.localPairPrompt spec) o h → o = .ok () ∨ o = .killed

/-- C45: no failure during the local prompt stops the session, unless the kernel or printf claims to have
written more than it was given.  See `C45_counterexample` for that case. -/
theorem C45_returns_partial {p : Pair} {spec : TemplateSpec} {o h} (hr : Runs (p.localPairPrompt spec) o h)
    (hov : ∀ e ∈ h, ¬ Overcount e) : o = .ok () ∨ o = .killed := by
  rcases localPrompt_runs hr with ⟨rfl, _⟩ | ⟨r, k, rfl, hs⟩
  · exact Or.inr rfl
  · rcases o with ⟨⟨⟩⟩ | _ | _
    · exact Or.inl rfl
    · obtain ⟨e, h1, h2⟩ := hs.panic rfl
      exact absurd h2 (hov e (List.mem_cons_of_mem _ h1))
    · exact Or.inr rfl

/-- From `s` and `s'` the program comes to the same end, with histories that differ only in how they
start. -/
def Alike {α : Type} (k k' : Hist) (s s' : Sched) (m : M α) : Prop := ∃ o g r, m s = (o, k ++ g, r) ∧ m s' = (o, k' ++ g, r)

theorem alike_after {α β k k' s s' t} {m : M α} {x} (f : α → M β) (h1 : m s = (.ok x, k, t)) (h2 : m s' = (.ok x, k', t)) :
    Alike k k' s s' (m >>= f) := by
  refine ⟨(f x t).1, (f x t).2.1, (f x t).2.2, ?_, ?_⟩
  · show M.bind m f s = _
    simp only [M.bind, h1]
  · show M.bind m f s' = _
    simp only [M.bind, h2]

theorem alike_bind {α β k k' s s'} {m : M α} (h : Alike k k' s s' m) (f : α → M β) : Alike k k' s s' (m >>= f) := by
  obtain ⟨o, g, r, h1, h2⟩ := h
  show ∃ o g r, M.bind m f s = _ ∧ M.bind m f s' = _
  simp only [M.bind, h1, h2]
  rcases o with x | _ | _
  · refine ⟨(f x r).1, g ++ (f x r).2.1, (f x r).2.2, ?_, ?_⟩ <;> rw [← List.append_assoc]
  · exact ⟨.panic, g, r, rfl, rfl⟩
  · exact ⟨.killed, g, r, rfl, rfl⟩

theorem alike_catchUnwind {α k k' s s'} {m : M α} (h : Alike k k' s s' m) : Alike k k' s s' (M.catchUnwind m) := by
  obtain ⟨o, g, r, h1, h2⟩ := h
  simp only [Alike, M.catchUnwind, h1, h2]
  rcases o with x | _ | _
  · exact ⟨_, g, r, rfl, rfl⟩
  · exact ⟨_, g, r, rfl, rfl⟩
  · exact ⟨_, g, r, rfl, rfl⟩

theorem alike_pairOpen {rt : Rt} {env : IoEnv} {k k' s s' t} (hx : (Pair.ofEnv env).isExempt rt.debug = some false)
    (hb : (Pair.ofEnv env).toUserAndGroup = false)
    (h1 : (Pair.ofEnv env).localPairPrompt (Pair.ofEnv env).templateSpec s = (.ok (), k, t))
    (h2 : (Pair.ofEnv env).localPairPrompt (Pair.ofEnv env).templateSpec s' = (.ok (), k', t)) :
    Alike k k' s s' (Pair.open rt env) := by
  unfold Pair.open
  change Alike k k' s s' (M.ofOption ((Pair.ofEnv env).isExempt rt.debug) >>= _)
  rw [hx, M.ofOption_some, M.pure_bind']
  change Alike k k' s s' (if (Pair.ofEnv env).toUserAndGroup = true then _ else _)
  rw [if_neg (by rw [hb]; simp)]
  exact alike_after _ h1 h2

/-- C45: how the local prompt went has no influence on the result.  Two runs of `open` in which the local
prompt returned and which got the same answers afterwards have the same result and leave the same
state, and they do the same after the local prompt. -/
theorem C45_irrelevant {rt a st env0 s s' k k' t} (hn : IoEnv.new rt a = some (.ok env0))
    {env : IoEnv} (he : env = st.env.getD env0)
    (hx : ¬ Exempt env (optionsOf env)) (hd : rt.debug = true → ¬ Trips env (optionsOf env))
    (hb : env.userInfo.uid = env.commandInfo.runasEuid ∨ env.settings.runasGroup = none)
    (hc : env.commandInfo.command ≠ [])
    (h1 : (Pair.ofEnv env).localPairPrompt (Pair.ofEnv env).templateSpec s = (.ok (), k, t))
    (h2 : (Pair.ofEnv env).localPairPrompt (Pair.ofEnv env).templateSpec s' = (.ok (), k', t)) :
    ∃ o g r, Core.open rt a st s = (o, k ++ g, r) ∧ Core.open rt a st s' = (o, k' ++ g, r) := by
  have hx : (Pair.ofEnv env).isExempt rt.debug = some false :=
    (isExempt_decides (fun h => hd h.1 h.2)).2 hx
  have hb : (Pair.ofEnv env).toUserAndGroup = false := by
    rcases hb with hb | hb <;> simp [Pair.toUserAndGroup, Pair.toUser, Pair.toExplicitGroup, Pair.ofEnv, hb]
  subst he
  rw [coreOpen_ok hn]
  refine alike_bind (alike_catchUnwind ?_) _
  unfold Core.makePlugin
  rw [if_neg (by rw [path_eq_nil]; exact hc)]
  exact alike_bind (alike_pairOpen hx hb h1 h2) _

/-- C45: an unreadable prompt file for the approver is as good as one that contains the built-in text. -/
theorem C45_default (p : Pair) (spec : TemplateSpec) (fd : Nat) {x x' : Answer}
    (hx : x (.readFile p.options.pairPromptPath) = none)
    (hx' : x' (.readFile p.options.pairPromptPath) = some defaultPairPrompt) (s : Sched) :
    (p.remotePairPrompt spec fd (x :: s)).1 = (p.remotePairPrompt spec fd (x' :: s)).1 ∧
      (p.remotePairPrompt spec fd (x :: s)).2.1.tail = (p.remotePairPrompt spec fd (x' :: s)).2.1.tail := by
  have key : ∀ (c : Sys) (f : Resp c → M (Except ErrorKind Unit)) (y : Answer),
      (M.sys c >>= f) (y :: s) = ((f (y c) s).1, ⟨c, y c⟩ :: (f (y c) s).2.1, (f (y c) s).2.2) := fun _ _ _ => rfl
  unfold Pair.remotePairPrompt
  rw [key, key, hx, hx']
  exact ⟨rfl, rfl⟩

/-- The user has no terminal that can be opened, and the local prompt is `%%100d`, so that `%100d` reaches
printf, which prints a number in a field of width 100 and returns 100. -/
def widePrompt : Answer
  | .readFile _ => some (b! "%%100d")
  | .ttyOpen _  => false
  | .printf _ b => .wrote (if b = b! "%100d" then 100 else b.length)
  | c           => coop 121 c

/-- The same, but printing fails. -/
def mutePrompt : Answer
  | .readFile _ => some (b! "%%100d")
  | .ttyOpen _  => false
  | .printf _ _ => .fail
  | c           => coop 121 c

/-- C45: the full statement fails.  When printf prints more than it was given, because the prompt has a
conversion with a field width, `write_all` panics and the session is refused although the approver
would have agreed.  If printing fails the session goes ahead. -/
theorem C45_counterexample :
    ¬ C45Full ∧ retOf (Core.open sampleRt sampleArgs Core.init (List.replicate 60 widePrompt)).1 = some (-1) ∧
    retOf (Core.open sampleRt sampleArgs Core.init (List.replicate 60 mutePrompt)).1 = some 1 := by
  refine ⟨fun hf => ?_, by decide +kernel, by decide +kernel⟩
  rcases hr : (Pair.ofEnv sampleEnv).localPairPrompt (Pair.ofEnv sampleEnv).templateSpec (List.replicate 60 widePrompt) with ⟨o, h, r⟩
  have h1 : ((Pair.ofEnv sampleEnv).localPairPrompt (Pair.ofEnv sampleEnv).templateSpec (List.replicate 60 widePrompt)).1 = .panic := by
    decide +kernel
  rw [hr] at h1
  cases h1
  rcases hf _ _ _ _ (runs_of hr) with h | h <;> cases h

/-- The hypotheses of `C45_irrelevant` can be met with different local prompts: one on the terminal, one
that could not be shown at all. -/
example : ∃ env0 k k', IoEnv.new sampleRt sampleArgs = some (.ok env0) ∧
    sampleEnv = (State.mk (some sampleEnv) none).env.getD env0 ∧
    ¬ Exempt sampleEnv (optionsOf sampleEnv) ∧ (sampleRt.debug = true → ¬ Trips sampleEnv (optionsOf sampleEnv)) ∧
    sampleEnv.settings.runasGroup = none ∧ sampleEnv.commandInfo.command ≠ [] ∧
    (Pair.ofEnv sampleEnv).localPairPrompt (Pair.ofEnv sampleEnv).templateSpec (List.replicate 3 (coop 121)) = (.ok (), k, []) ∧
    (Pair.ofEnv sampleEnv).localPairPrompt (Pair.ofEnv sampleEnv).templateSpec (List.replicate 3 mutePrompt) = (.ok (), k', []) ∧
    onTty k ≠ [] ∧ onTty k' = [] := by
  have h0 : (match IoEnv.new sampleRt sampleArgs with | some (.ok _) => true | _ => false) = true := by decide +kernel
  rcases hn : IoEnv.new sampleRt sampleArgs with _ | _ | env0
  · rw [hn] at h0; cases h0
  · rw [hn] at h0; cases h0
  · have hd : sampleRt.debug = false := by decide +kernel
    have hx : (Pair.ofEnv sampleEnv).isExempt false = some false := by decide +kernel
    refine ⟨env0, ((Pair.ofEnv sampleEnv).localPairPrompt (Pair.ofEnv sampleEnv).templateSpec (List.replicate 3 (coop 121))).2.1,
      ((Pair.ofEnv sampleEnv).localPairPrompt (Pair.ofEnv sampleEnv).templateSpec (List.replicate 3 mutePrompt)).2.1, rfl, rfl,
      fun h => ?_, fun h => absurd (h.symm.trans hd) (by simp), by decide +kernel, by decide +kernel,
      Prod.ext (by decide +kernel) (Prod.ext rfl ?_), Prod.ext (by decide +kernel) (Prod.ext rfl ?_), by decide +kernel, by decide +kernel⟩
    · have := (isExempt_decides (d := false) (p := Pair.ofEnv sampleEnv) (by simp)).1 h
      rw [hx] at this; cases this
    · exact List.length_eq_zero_iff.1 (by decide +kernel)
    · exact List.length_eq_zero_iff.1 (by decide +kernel)

/-- `C45_text` on a run that returns. -/
example : ∃ h, Runs ((Pair.ofEnv sampleEnv).localPairPrompt (Pair.ofEnv sampleEnv).templateSpec) (.ok ()) h ∧
    onTty h = (Pair.ofEnv sampleEnv).templateSpec.expand defaultUserPrompt :=
  ⟨_, ⟨List.replicate 3 (coop 121), by decide +kernel, rfl⟩, by decide +kernel⟩

end SudoPair
