import Verif.Lemmas.SockIo
/-
The possible runs of the pair prompt, of mirroring, and of the log callbacks.
-/
namespace SudoPair
open Spec

/-- An outcome that is not a value. -/
inductive Aborts {α β : Type} : Out α → Out β → Prop
  | panic : Aborts .panic .panic
  | killed : Aborts .killed .killed

/-- The text sent to the pair, given the result of reading the template file. -/
def Pair.promptText (p : Pair) (r : Option Bytes) : Bytes :=
  p.templateSpec.expand (r.getD defaultPairPrompt)

/-- The decision on the reply byte. -/
def Pair.verdict (b : UInt8) : Except ErrorKind Unit :=
  if b = 121 ∨ b = 89 then .ok () else .error .sessionDeclined

/-- Runs of `remote_pair_prompt`. -/
inductive PromptRun (p : Pair) (fd : Nat) : Out (Except ErrorKind Unit) → Hist → Prop
  | k0 : PromptRun p fd .killed []
  | writeErr {r : Option Bytes} {h} : WroteAll fd (p.promptText r) (.ok false) h →
      PromptRun p fd (.ok (.error .communicationError)) (⟨.readFile p.options.pairPromptPath, r⟩ :: h)
  | writeStop {r : Option Bytes} {h o o'} : WroteAll fd (p.promptText r) o h → Aborts o o' →
      PromptRun p fd o' (⟨.readFile p.options.pairPromptPath, r⟩ :: h)
  | flushErr {r : Option Bytes} {h1 h2} : WroteAll fd (p.promptText r) (.ok true) h1 →
      GuardedFlush (.ok false) h2 →
      PromptRun p fd (.ok (.error .communicationError))
        (⟨.readFile p.options.pairPromptPath, r⟩ :: (h1 ++ h2))
  | flushKilled {r : Option Bytes} {h1 h2} : WroteAll fd (p.promptText r) (.ok true) h1 →
      GuardedFlush .killed h2 →
      PromptRun p fd .killed (⟨.readFile p.options.pairPromptPath, r⟩ :: (h1 ++ h2))
  | readKilled {r : Option Bytes} {h1 h2 h3} : WroteAll fd (p.promptText r) (.ok true) h1 →
      GuardedFlush (.ok true) h2 → Guarded (.sockRead fd 1) .killed h3 →
      PromptRun p fd .killed (⟨.readFile p.options.pairPromptPath, r⟩ :: (h1 ++ (h2 ++ h3)))
  | readErr {r : Option Bytes} {h1 h2 h3} {res : Option (ReadRes 1)} : WroteAll fd (p.promptText r) (.ok true) h1 →
      GuardedFlush (.ok true) h2 → Guarded (.sockRead fd 1) (.ok res) h3 →
      res.bind Pair.responseByte = none →
      PromptRun p fd (.ok (.error .sessionDeclined))
        (⟨.readFile p.options.pairPromptPath, r⟩ :: (h1 ++ (h2 ++ h3)))
  | echoStop {r : Option Bytes} {h1 h2 h3} {res : ReadRes 1} {b h4 o o'} :
      WroteAll fd (p.promptText r) (.ok true) h1 →
      GuardedFlush (.ok true) h2 → Guarded (.sockRead fd 1) (.ok (some res)) h3 →
      Pair.responseByte res = some b → WroteAll fd [b] o h4 → Aborts o o' →
      PromptRun p fd o'
        (⟨.readFile p.options.pairPromptPath, r⟩ :: (h1 ++ (h2 ++ (h3 ++ h4))))
  | nlStop {r : Option Bytes} {h1 h2 h3} {res : ReadRes 1} {b h4 c h5 o o'} :
      WroteAll fd (p.promptText r) (.ok true) h1 →
      GuardedFlush (.ok true) h2 → Guarded (.sockRead fd 1) (.ok (some res)) h3 →
      Pair.responseByte res = some b → WroteAll fd [b] (.ok c) h4 → WroteAll fd [10] o h5 →
      Aborts o o' →
      PromptRun p fd o'
        (⟨.readFile p.options.pairPromptPath, r⟩ :: (h1 ++ (h2 ++ (h3 ++ (h4 ++ h5)))))
  | answered {r : Option Bytes} {h1 h2 h3} {res : ReadRes 1} {b h4 c h5 d} :
      WroteAll fd (p.promptText r) (.ok true) h1 →
      GuardedFlush (.ok true) h2 → Guarded (.sockRead fd 1) (.ok (some res)) h3 →
      Pair.responseByte res = some b → WroteAll fd [b] (.ok c) h4 → WroteAll fd [10] (.ok d) h5 →
      PromptRun p fd (.ok (Pair.verdict b))
        (⟨.readFile p.options.pairPromptPath, r⟩ :: (h1 ++ (h2 ++ (h3 ++ (h4 ++ h5)))))

theorem remotePairPrompt_runs {p : Pair} {fd o h}
    (hr : Runs (p.remotePairPrompt p.templateSpec fd) o h) : PromptRun p fd o h := by
  unfold Pair.remotePairPrompt at hr
  inv Runs.sys_bind hr with ⟨rfl, rfl⟩ | ⟨r, h', hr, rfl⟩
  · exact .k0
  change Runs (Socket.writeAll fd (p.promptText r) >>= _) o h' at hr
  inv Runs.bind hr with ⟨b, h1, h2, hw, hr, rfl⟩ | ⟨rfl, hw⟩ | ⟨rfl, hw⟩
  · have hw := socketWriteAll_runs hw
    cases b with
    | false => obtain ⟨rfl, rfl⟩ := hr.pure; rw [List.append_nil]; exact .writeErr hw
    | true =>
      simp only [if_true] at hr
      inv Runs.bind hr with ⟨b, h3, h4, hf, hr, rfl⟩ | ⟨rfl, hf⟩ | ⟨rfl, hf⟩
      · have hf := flush_runs hf
        cases b with
        | false => obtain ⟨rfl, rfl⟩ := hr.pure; rw [List.append_nil]; exact .flushErr hw hf
        | true =>
          simp only [if_true] at hr
          inv Runs.bind hr with ⟨res, h5, h6, hrd, hr, rfl⟩ | ⟨rfl, hrd⟩ | ⟨rfl, hrd⟩
          · obtain ⟨o', hg, ⟨_, h⟩ | ⟨rfl, h⟩ | ⟨res', rfl, h⟩⟩ := read_runs hrd
            · simp at h
            · simp only [Out.ok.injEq] at h; subst h
              obtain ⟨rfl, rfl⟩ := hr.pure
              rw [List.append_nil]; exact .readErr hw hf hg rfl
            · simp only [Out.ok.injEq] at h; subst h
              split at hr
              · rename_i hn
                obtain ⟨rfl, rfl⟩ := hr.pure
                rw [List.append_nil]; exact .readErr hw hf hg hn
              · rename_i b hb
                inv Runs.bind hr with ⟨c, h7, h8, hw1, hr, rfl⟩ | ⟨rfl, hw1⟩ | ⟨rfl, hw1⟩
                · have hw1 := socketWriteAll_runs hw1
                  inv Runs.bind hr with ⟨d, h9, h10, hw2, hr, rfl⟩ | ⟨rfl, hw2⟩ | ⟨rfl, hw2⟩
                  · have hw2 := socketWriteAll_runs hw2
                    have := PromptRun.answered hw hf hg hb hw1 hw2
                    unfold Pair.verdict at this
                    split at hr <;> rename_i hc <;> obtain ⟨rfl, rfl⟩ := hr.pure
                    · rw [if_pos hc] at this
                      simpa using this
                    · rw [if_neg hc] at this
                      simpa using this
                  · exact .nlStop hw hf hg hb hw1 (socketWriteAll_runs hw2) .panic
                  · exact .nlStop hw hf hg hb hw1 (socketWriteAll_runs hw2) .killed
                · exact .echoStop hw hf hg hb (socketWriteAll_runs hw1) .panic
                · exact .echoStop hw hf hg hb (socketWriteAll_runs hw1) .killed
          · obtain ⟨o', hg, ⟨_, h⟩ | ⟨rfl, h⟩ | ⟨res', rfl, h⟩⟩ := read_runs hrd <;> simp at h
          · obtain ⟨o', hg, ⟨rfl, h⟩ | ⟨rfl, h⟩ | ⟨res', rfl, h⟩⟩ := read_runs hrd
            · exact .readKilled hw hf hg
            · simp at h
            · simp at h
      · have hf := flush_runs hf; cases hf
      · exact .flushKilled hw (flush_runs hf)
  · exact .writeStop (socketWriteAll_runs hw) .panic
  · exact .writeStop (socketWriteAll_runs hw) .killed

/-! ### Log callbacks -/

theorem M.pure_bind' {α β : Type} (a : α) (f : α → M β) : ((pure a : M α) >>= f) = f a := by
  funext s
  rw [M.bind_def]
  rfl

theorem M.ofOption_some {α : Type} (a : α) : M.ofOption (some a) = pure a := rfl


/-- Runs of `log_output`. -/
theorem logOutput_runs {p : Pair} {buf o h} (hr : Runs (p.logOutput buf) o h) :
    (p.socket = none ∧ o = .ok (.ok ()) ∧ h = []) ∨
    ∃ fd o', p.socket = some fd ∧ WroteAll fd buf o' h ∧
      ((o' = .ok true ∧ o = .ok (.ok ())) ∨ (o' = .ok false ∧ o = .ok (.error .sessionTerminated)) ∨
       (o' = .panic ∧ o = .panic) ∨ (o' = .killed ∧ o = .killed)) := by
  unfold Pair.logOutput at hr
  split at hr
  · obtain ⟨rfl, rfl⟩ := hr.pure; exact Or.inl ⟨‹_›, rfl, rfl⟩
  · rename_i fd hfd
    refine Or.inr ⟨fd, ?_⟩
    inv Runs.bind hr with ⟨b, h1, h2, hw, hr, rfl⟩ | ⟨rfl, hw⟩ | ⟨rfl, hw⟩
    · have hw := socketWriteAll_runs hw
      cases b with
      | true => obtain ⟨rfl, rfl⟩ := hr.pure; rw [List.append_nil]; exact ⟨_, hfd, hw, Or.inl ⟨rfl, rfl⟩⟩
      | false =>
        obtain ⟨rfl, rfl⟩ := hr.pure; rw [List.append_nil]
        exact ⟨_, hfd, hw, Or.inr (Or.inl ⟨rfl, rfl⟩)⟩
    · exact ⟨_, hfd, socketWriteAll_runs hw, Or.inr (Or.inr (Or.inl ⟨rfl, rfl⟩))⟩
    · exact ⟨_, hfd, socketWriteAll_runs hw, Or.inr (Or.inr (Or.inr ⟨rfl, rfl⟩))⟩

/-- Runs of the common tail of the log callbacks around a handler `m`: the result is 1 iff the handler
succeeded, everything after the handler is quiet. -/
theorem finish_runs {env : IoEnv} {m : M (Except ErrorKind Unit)} {o h}
    (hr : Runs (M.catchUnwind (do Core.finish env (← m))) o h) :
    (o = .ok (some 1) ∧ Runs m (.ok (.ok ())) h) ∨
    (∃ e h1 h2, Runs m (.ok (.error e)) h1 ∧ Prints h2 ∧ h = h1 ++ h2 ∧
      (o = .ok (some 0) ∨ o = .ok none ∨ o = .killed)) ∨
    (o = .ok none ∧ Runs m .panic h) ∨ (o = .killed ∧ Runs m .killed h) := by
  have key : ∀ {o h}, Runs (do Core.finish env (← m)) o h →
    (o = .ok 1 ∧ Runs m (.ok (.ok ())) h) ∨
    (∃ e h1 h2, Runs m (.ok (.error e)) h1 ∧ Prints h2 ∧ h = h1 ++ h2 ∧
      (o = .ok 0 ∨ o = .panic ∨ o = .killed)) ∨
    (o = .panic ∧ Runs m .panic h) ∨ (o = .killed ∧ Runs m .killed h) := by
    intro o h hr
    inv Runs.bind hr with ⟨x, h1, h2, hm, hr, rfl⟩ | ⟨rfl, hm⟩ | ⟨rfl, hm⟩
    · rcases x with e | ⟨⟩
      · refine Or.inr (Or.inl ⟨e, h1, h2, hm, ?_⟩)
        unfold Core.finish at hr
        simp only at hr
        inv Runs.bind hr with ⟨b, h3, h4, hw, hr, rfl⟩ | ⟨rfl, hw⟩ | ⟨rfl, hw⟩
        · obtain ⟨rfl, rfl⟩ := hr.pure
          rw [List.append_nil]
          exact ⟨(writeError_prints _ _ _).of_runs hw, rfl, Or.inl rfl⟩
        · exact ⟨(writeError_prints _ _ _).of_runs hw, rfl, Or.inr (Or.inl rfl)⟩
        · exact ⟨(writeError_prints _ _ _).of_runs hw, rfl, Or.inr (Or.inr rfl)⟩
      · obtain ⟨rfl, rfl⟩ := hr.pure
        rw [List.append_nil]; exact Or.inl ⟨rfl, hm⟩
    · exact Or.inr (Or.inr (Or.inl ⟨rfl, hm⟩))
    · exact Or.inr (Or.inr (Or.inr ⟨rfl, hm⟩))
  inv Runs.catchUnwind hr with ⟨x, rfl, hm⟩ | ⟨rfl, hm⟩ | ⟨rfl, hm⟩
  · rcases key hm with ⟨h, hk⟩ | ⟨e, h1, h2, h3, h4, h5, h | h | h⟩ | ⟨h, _⟩ | ⟨h, _⟩
    · simp only [Out.ok.injEq] at h; subst h; exact Or.inl ⟨rfl, hk⟩
    · simp only [Out.ok.injEq] at h; subst h
      exact Or.inr (Or.inl ⟨e, h1, h2, h3, h4, h5, Or.inl rfl⟩)
    all_goals simp at h
  · rcases key hm with ⟨h, hk⟩ | ⟨e, h1, h2, h3, h4, h5, _⟩ | ⟨_, hk⟩ | ⟨h, _⟩
    · simp at h
    · exact Or.inr (Or.inl ⟨e, h1, h2, h3, h4, h5, Or.inr (Or.inl rfl)⟩)
    · exact Or.inr (Or.inr (Or.inl ⟨rfl, hk⟩))
    · simp at h
  · rcases key hm with ⟨h, hk⟩ | ⟨e, h1, h2, h3, h4, h5, _⟩ | ⟨h, _⟩ | ⟨_, hk⟩
    · simp at h
    · exact Or.inr (Or.inl ⟨e, h1, h2, h3, h4, h5, Or.inr (Or.inr rfl)⟩)
    · simp at h
    · exact Or.inr (Or.inr (Or.inr ⟨rfl, hk⟩))

/-- Runs of a handler-based callback on a session: return value 1 iff the handler succeeded. -/
inductive LogRun (m : M (Except ErrorKind Unit)) : Out Int → Hist → Prop
  | ok {h} : Runs m (.ok (.ok ())) h → LogRun m (.ok 1) h
  | err {e h1 h2} : Runs m (.ok (.error e)) h1 → Prints h2 → LogRun m (.ok 0) (h1 ++ h2)
  | errKilled {e h1 h2} : Runs m (.ok (.error e)) h1 → Prints h2 → LogRun m .killed (h1 ++ h2)
  | panic {h} : Runs m .panic h → LogRun m (.ok 0) h
  | killed {h} : Runs m .killed h → LogRun m .killed h

theorem logRun_of {env : IoEnv} {m : M (Except ErrorKind Unit)} {o h}
    (hr : Runs (do
      let r ← M.catchUnwind (do Core.finish env (← m))
      pure (r.getD Core.LOG_DENY)) o h) : LogRun m o h := by
  inv Runs.bind hr with ⟨r, h1, h2, hc, hr, rfl⟩ | ⟨rfl, hc⟩ | ⟨rfl, hc⟩
  · obtain ⟨rfl, rfl⟩ := hr.pure
    rw [List.append_nil]
    rcases finish_runs hc with ⟨h, hk⟩ | ⟨e, h1, h2, h3, h4, rfl, h | h | h⟩ | ⟨h, hk⟩ | ⟨h, _⟩
    · simp only [Out.ok.injEq] at h; subst h; exact .ok hk
    · simp only [Out.ok.injEq] at h; subst h; exact .err h3 h4
    · simp only [Out.ok.injEq] at h; subst h; exact .err h3 h4
    · simp at h
    · simp only [Out.ok.injEq] at h; subst h; exact .panic hk
    · simp at h
  · rcases finish_runs hc with ⟨h, hk⟩ | ⟨e, h1, h2, h3, h4, rfl, h | h | h⟩ | ⟨h, hk⟩ | ⟨h, _⟩ <;> simp at h
  · rcases finish_runs hc with ⟨h, hk⟩ | ⟨e, h1, h2, h3, h4, rfl, _⟩ | ⟨h, hk⟩ | ⟨h, hk⟩
    · simp at h
    · exact .errKilled h3 h4
    · simp at h
    · exact .killed hk

/-- Outside a session: refused without any interaction. -/
theorem log_none_runs {rt f buf} {st : State} {o h} (hn : st.env = none ∨ st.plugin = none)
    (hr : Runs (Core.log rt f buf st) o h) : o = .ok 0 ∧ h = [] := by
  unfold Core.log at hr
  have key : ∀ {o h}, Runs (M.catchUnwind (do
      let env ← M.ofOption st.env
      let plugin ← M.ofOption st.plugin
      if !Core.hint env.commandInfo f then pure Core.LOG_OK
      else Core.finish env (← Core.handler rt plugin buf f) : M Int)) o h → o = .ok none ∧ h = [] := by
    intro o h hr
    have hp : ∀ {o h}, Runs (do
      let env ← M.ofOption st.env
      let plugin ← M.ofOption st.plugin
      if !Core.hint env.commandInfo f then pure Core.LOG_OK
      else Core.finish env (← Core.handler rt plugin buf f) : M Int) o h → o = .panic ∧ h = [] := by
      intro o h hr
      inv Runs.ofOption_bind hr with ⟨_, rfl, rfl⟩ | ⟨env, he, hr⟩
      · exact ⟨rfl, rfl⟩
      · inv Runs.ofOption_bind hr with ⟨_, rfl, rfl⟩ | ⟨p, hp, hr⟩
        · exact ⟨rfl, rfl⟩
        · rcases hn with hn | hn
          · rw [hn] at he; simp at he
          · rw [hn] at hp; simp at hp
    inv Runs.catchUnwind hr with ⟨x, rfl, hm⟩ | ⟨rfl, hm⟩ | ⟨rfl, hm⟩
    · have := (hp hm).1; simp at this
    · exact ⟨rfl, (hp hm).2⟩
    · have := (hp hm).1; simp at this
  inv Runs.bind hr with ⟨r, h1, h2, hc, hr, rfl⟩ | ⟨rfl, hc⟩ | ⟨rfl, hc⟩
  · obtain ⟨h3, rfl⟩ := key hc
    simp only [Out.ok.injEq] at h3; subst h3
    obtain ⟨rfl, rfl⟩ := hr.pure
    exact ⟨rfl, rfl⟩
  · have := (key hc).1; simp at this
  · have := (key hc).1; simp at this

theorem changeWinsize_none_runs {l c} {st : State} {o h} (hn : st.env = none ∨ st.plugin = none)
    (hr : Runs (Core.changeWinsize l c st) o h) : o = .ok 0 ∧ h = [] := by
  unfold Core.changeWinsize at hr
  have hp : ∀ {o h}, Runs (do
      let env ← M.ofOption st.env
      let plugin ← M.ofOption st.plugin
      Core.finish env (← plugin.changeWinsize l c) : M Int) o h → o = .panic ∧ h = [] := by
    intro o h hr
    inv Runs.ofOption_bind hr with ⟨_, rfl, rfl⟩ | ⟨env, he, hr⟩
    · exact ⟨rfl, rfl⟩
    · inv Runs.ofOption_bind hr with ⟨_, rfl, rfl⟩ | ⟨p, hp, hr⟩
      · exact ⟨rfl, rfl⟩
      · rcases hn with hn | hn
        · rw [hn] at he; simp at he
        · rw [hn] at hp; simp at hp
  inv Runs.bind hr with ⟨r, h1, h2, hc, hr, rfl⟩ | ⟨rfl, hc⟩ | ⟨rfl, hc⟩
  · inv Runs.catchUnwind hc with ⟨x, h3, hm⟩ | ⟨h3, hm⟩ | ⟨h3, hm⟩
    · have := (hp hm).1; simp at this
    · simp only [Out.ok.injEq] at h3; subst h3
      obtain ⟨rfl, rfl⟩ := hr.pure
      exact ⟨rfl, by simpa using (hp hm).2⟩
    · simp at h3
  · inv Runs.catchUnwind hc with ⟨x, h3, hm⟩ | ⟨h3, hm⟩ | ⟨h3, hm⟩ <;> simp at h3
  · inv Runs.catchUnwind hc with ⟨x, h3, hm⟩ | ⟨h3, hm⟩ | ⟨_, hm⟩
    · simp at h3
    · simp at h3
    · have := (hp hm).1; simp at this

/-- In a session: with the hint off nothing happens, otherwise the handler decides. -/
theorem log_some_runs {rt f buf env p} {o h}
    (hr : Runs (Core.log rt f buf ⟨some env, some p⟩) o h) :
    (Core.hint env.commandInfo f = false ∧ o = .ok 1 ∧ h = []) ∨
    (Core.hint env.commandInfo f = true ∧ LogRun (Core.handler rt p buf f) o h) := by
  cases hh : Core.hint env.commandInfo f with
  | false =>
    left
    have : Core.log rt f buf ⟨some env, some p⟩ = pure 1 := by
      unfold Core.log
      simp only [M.ofOption_some, M.pure_bind', hh, Bool.not_false, if_true]
      rfl
    rw [this] at hr
    exact ⟨rfl, hr.pure.1, hr.pure.2⟩
  | true =>
    right
    refine ⟨rfl, logRun_of (env := env) ?_⟩
    have : Core.log rt f buf ⟨some env, some p⟩ = (do
        let r ← M.catchUnwind (do Core.finish env (← Core.handler rt p buf f))
        pure (r.getD Core.LOG_DENY)) := by
      unfold Core.log
      simp only [M.ofOption_some, M.pure_bind', hh, Bool.not_true, Bool.false_eq_true, if_false]
    rw [this] at hr
    exact hr

theorem changeWinsize_some_runs {l c env p} {o h}
    (hr : Runs (Core.changeWinsize l c ⟨some env, some p⟩) o h) :
    LogRun (p.logOutput (Pair.winsizeSeq l c)) o h := by
  refine logRun_of (env := env) ?_
  exact hr

end SudoPair
