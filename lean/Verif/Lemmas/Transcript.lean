import Verif.Spec.Transcript
import Verif.Props.Audit
import Verif.Props.Text
import Verif.Props.Framework
/-
The complete log of the callbacks, by inversion of the logging model.
-/
namespace SudoPair
open Spec Audit

variable {α β : Type}

theorem records_acts' (h : Hist) : records (acts h) = [] := records_acts h

/-- Code that makes the records `l` one after the other, all of them if it ends. -/
def Along (m : L α) (l : List Record) : Prop :=
  ∀ {o t}, LRuns m o t → records t <+: l ∧ ∀ a, o = .ok a → records t = l

theorem along_pure (a : α) : Along (pure a : L α) [] := by
  intro o t h
  obtain ⟨rfl, rfl⟩ := h.pure
  exact ⟨List.prefix_refl _, fun _ _ => rfl⟩

theorem along_lift (m : M α) : Along (L.lift m) [] := by
  intro o t h
  obtain ⟨h', _, rfl⟩ := h.lift
  have := records_acts' h'
  exact ⟨by rw [show records (List.map Entry.sys h') = [] from this]; exact List.prefix_refl _, fun _ _ => this⟩

theorem along_say (p : Pair) (l : Level) (m : Bytes) (own : Fields) : Along (say p l m own) [about p.env l m own] := by
  intro o t h
  obtain ⟨rfl, rfl⟩ := LRuns.say h
  exact ⟨List.prefix_refl _, fun _ _ => rfl⟩

theorem along_connecting (p : Pair) (l : Level) (m : Bytes) (own : Fields) : Along (L.say (connecting p) l m own)
    [about p.env l m (own ++ [(b! "socket_path", .text p.socketPath)])] := by
  intro o t h
  obtain ⟨rfl, rfl⟩ := LRuns.say h
  have : records [Entry.note ⟨l, m, own ++ connecting p⟩] =
      [about p.env l m (own ++ [(b! "socket_path", .text p.socketPath)])] := by
    unfold about connecting
    rw [List.append_assoc]
    rfl
  exact ⟨by rw [this]; exact List.prefix_refl _, fun _ _ => this⟩

theorem along_bind {m : L α} {f : α → L β} {l l' : List Record} (hm : Along m l) (hf : ∀ a, Along (f a) l') :
    Along (m >>= f) (l ++ l') := by
  intro o t h
  rcases h.bind with ⟨a, t1, t2, h1, h2, rfl⟩ | ⟨rfl, h1⟩ | ⟨rfl, h1⟩
  · rw [records_append, (hm h1).2 a rfl]
    exact ⟨(List.prefix_append_right_inj l).2 (hf a h2).1, fun b hb => by rw [(hf a h2).2 b hb]⟩
  · exact ⟨(hm h1).1.trans (List.prefix_append _ _), fun _ h => absurd h (by simp)⟩
  · exact ⟨(hm h1).1.trans (List.prefix_append _ _), fun _ h => absurd h (by simp)⟩

theorem along_ite {c : Prop} [Decidable c] {m n : L α} {l : List Record} (hm : Along m l) (hn : Along n l) :
    Along (if c then m else n) l := by split <;> assumption

theorem along_prompt (p : Pair) (spec : TemplateSpec) : Along (localPairPrompt p spec) (prompting p.env) := by
  unfold localPairPrompt
  refine along_bind (l := []) (along_lift _) fun _ => along_bind (along_say p .trace (b! "local prompt template loaded") []) fun _ =>
    along_bind (along_say p .trace (b! "local prompt template evaluated") []) fun _ =>
    along_bind (l := []) (along_lift _) fun _ => along_ite (along_say _ _ _ _) ?_
  exact along_bind (l := []) (along_lift _) fun _ => along_say _ _ _ _

theorem along_unwind {p : Pair} {m : L α} {l : List Record} (hm : Along m l) {o t}
    (h : LRuns (L.onUnwind m (exiting p)) o t) :
    (o = .panic ∧ ∃ pre, pre <+: l ∧ records t = pre ++ [leaving p.env]) ∨
    (o ≠ .panic ∧ records t <+: l ∧ ∀ a, o = .ok a → records t = l) := by
  rcases h.onUnwind with ⟨h, hne⟩ | ⟨t1, t2, o2, h1, h2, rfl, h3⟩
  · exact Or.inr ⟨hne, hm h⟩
  · obtain ⟨rfl, rfl⟩ := LRuns.say h2
    rcases h3 with ⟨h, _⟩ | ⟨_, rfl⟩
    · exact absurd h (by simp)
    · exact Or.inl ⟨rfl, _, (hm h1).1, by rw [records_append]; rfl⟩

/-- The decision either is made and recorded, or fails without a trace. -/
theorem isExempt_trace {debug : Bool} {p : Pair} {o t} (hr : LRuns (Audit.isExempt debug p) o t) :
    (o = .panic ∧ p.isExempt debug = none ∧ records t = []) ∨
    ∃ b msg own, o = .ok b ∧ p.isExempt debug = some b ∧ records t = [about p.env .debug msg own] ∧
      First (reasons p.env p.options) (msg, own) ∧ (b = false ↔ msg = b! "sudo session requires a pair") := by
  have he := hr.erase
  rw [erase_isExempt] at he
  cases o with
  | ok b =>
    right
    obtain ⟨msg, own, rfl, h1, h2⟩ := C66_reason hr
    refine ⟨b, msg, own, rfl, ?_, rfl, h1, h2⟩
    cases hi : p.isExempt debug with
    | none => rw [hi] at he; exact absurd he.panic.1 (by simp)
    | some c => rw [hi] at he; have := he.pure.1; simp only [Out.ok.injEq] at this; rw [this]
  | killed =>
    cases hi : p.isExempt debug with
    | none => rw [hi] at he; exact absurd he.panic.1 (by simp)
    | some c => rw [hi] at he; exact absurd he.pure.1 (by simp)
  | panic =>
    left
    refine ⟨rfl, ?_, ?_⟩
    · cases hi : p.isExempt debug with
      | none => rfl
      | some c => rw [hi] at he; exact absurd he.pure.1 (by simp)
    clear he
    have stop : ∀ {m : Bytes} {own : Fields} {c : Bool} {t},
        ¬ LRuns (do Audit.say p .debug m own; pure c) .panic t := by
      intro m own c t h
      inv LRuns.psay_bind h with ⟨t', h, rfl⟩
      exact absurd h.pure.1 (by simp)
    have none : ∀ {f : Bool → L Bool} {t}, LRuns (L.lift (M.ofOption none) >>= f) .panic t → records t = [] := by
      rintro f t ⟨s, _, rfl⟩
      rfl
    unfold Audit.isExempt at hr
    split at hr
    · exact absurd hr stop
    cases hth : p.toThemselves debug with
    | none => rw [hth] at hr; exact none hr
    | some c =>
    rw [hth, lift_some_bind] at hr
    split at hr
    · exact absurd hr stop
    split at hr
    · exact absurd hr stop
    split at hr
    · exact absurd hr stop
    split at hr
    · exact absurd hr stop
    cases hg : p.toEnforcedGid debug with
    | none => rw [hg] at hr; exact none hr
    | some d =>
    rw [hg, lift_some_bind] at hr
    split at hr <;> exact absurd hr stop

/-- Connecting. -/
theorem connect_trace {rt : Rt} {p : Pair} {o t} (hr : LRuns (remotePairConnect rt p) o t) :
    records t <+: waiting (Detailed rt) p.env p.socketPath ∧
    ∀ fd, o = .ok (.ok fd) → records t = waiting (Detailed rt) p.env p.socketPath := by
  have hin : ∀ {o t}, LRuns (Audit.initializing rt p) o t →
      (o = .panic ∧ records t = []) ∨
      (∃ mode, o = .ok () ∧ (Detailed rt = true → p.socketMode = some mode) ∧
        records t = if Detailed rt then [socketNote p.env p.socketPath] else []) := by
    intro o t h
    unfold Audit.initializing at h
    rw [detailed_iff] at h
    cases hd : Detailed rt with
    | false =>
      rw [hd, if_neg (by decide)] at h
      obtain ⟨rfl, rfl⟩ := h.pure
      exact Or.inr ⟨0, rfl, by simp, rfl⟩
    | true =>
      rw [hd, if_pos (by decide)] at h
      cases hm : p.socketMode with
      | none =>
        rw [hm] at h
        obtain ⟨s, rfl, rfl⟩ := h
        exact Or.inl ⟨rfl, rfl⟩
      | some mode =>
        rw [hm, lift_some_bind] at h
        obtain ⟨rfl, rfl⟩ := LRuns.say h
        refine Or.inr ⟨mode, rfl, fun _ => rfl, ?_⟩
        have hne : ¬ Nobody p.env := fun h => by rw [(nobody_iff p).2 h] at hm; exact absurd hm (by simp)
        unfold Pair.socketMode at hm
        simp only [records, if_true, List.cons.injEq, and_true]
        unfold socketNote about connecting Pair.socketUid Pair.socketGid
        have hu : p.toUser = true ↔ p.env.commandInfo.runasEuid ≠ p.env.userInfo.uid := by
          simp only [Pair.toUser, decide_eq_true_eq]; exact ⟨Ne.symm, Ne.symm⟩
        have hg : p.toExplicitGroup = true ↔ p.env.settings.runasGroup ≠ none := by
          unfold Pair.toExplicitGroup; cases p.env.settings.runasGroup <;> simp
        rw [session_identity]
        by_cases h1 : p.env.commandInfo.runasEuid = p.env.userInfo.uid
        · have h1' : p.toUser = false := by
            cases h : p.toUser with
            | false => rfl
            | true => exact absurd h1 (hu.1 h)
          rw [h1', if_neg (by decide)] at hm
          by_cases h2 : p.env.settings.runasGroup = none
          · exact absurd ⟨h1, h2⟩ hne
          · have h2' := hg.2 h2
            rw [h2', if_pos rfl] at hm
            simp only [Option.some.injEq] at hm
            subst hm
            simp [h1, h1', h2, h2', Socket.S_IWGRP]
        · have h1' := hu.2 h1
          rw [h1', if_pos rfl] at hm
          simp only [Option.some.injEq] at hm
          subst hm
          by_cases h2 : p.env.settings.runasGroup = none
          · have h2' : p.toExplicitGroup = false := by
              cases h : p.toExplicitGroup with
              | false => rfl
              | true => exact absurd h2 (hg.1 h)
            simp [h1, h1', h2, h2', Socket.S_IWUSR]
          · simp [h1, h1', h2, hg.2 h2, Socket.S_IWUSR]
  unfold remotePairConnect at hr
  inv LRuns.bind hr with ⟨u, t1, t2, h1, hr, rfl⟩ | ⟨rfl, h1⟩ | ⟨rfl, h1⟩
  case inr.inl =>
    rcases hin h1 with ⟨_, h⟩ | ⟨_, h, _⟩
    · rw [h]; exact ⟨List.nil_prefix, fun _ h => absurd h (by simp)⟩
    · exact absurd h (by simp)
  case inr.inr => rcases hin h1 with ⟨h, _⟩ | ⟨_, h, _⟩ <;> exact absurd h (by simp)
  rw [records_append]
  unfold waiting
  rcases hin h1 with ⟨h, _⟩ | ⟨_, _, _, hv⟩
  · exact absurd h (by simp)
  rw [hv]
  inv LRuns.say_bind hr with ⟨t4, hr, rfl⟩
  have key : records t4 <+: [about p.env .info (b! "socket connected") [(b! "socket_path", .text p.socketPath)]] ∧
      ∀ fd, o = .ok (.ok fd) → records t4 =
        [about p.env .info (b! "socket connected") [(b! "socket_path", .text p.socketPath)]] := by
    inv LRuns.lift_bind hr with ⟨mode, h5, t5, _, hr, rfl⟩ | ⟨rfl, h5, _, rfl⟩ | ⟨rfl, h5, _, rfl⟩
    case inr.inl => rw [records_acts']; exact ⟨List.nil_prefix, fun _ h => absurd h (by simp)⟩
    case inr.inr => rw [records_acts']; exact ⟨List.nil_prefix, fun _ h => absurd h (by simp)⟩
    inv LRuns.lift_bind hr with ⟨c, h6, t6, _, hr, rfl⟩ | ⟨rfl, h6, _, rfl⟩ | ⟨rfl, h6, _, rfl⟩
    case inr.inl => rw [records_append, records_acts', records_acts']; exact ⟨List.nil_prefix, fun _ h => absurd h (by simp)⟩
    case inr.inr => rw [records_append, records_acts', records_acts']; exact ⟨List.nil_prefix, fun _ h => absurd h (by simp)⟩
    rw [records_append, records_append, records_acts', records_acts', List.nil_append, List.nil_append]
    cases c with
    | none =>
      obtain ⟨rfl, rfl⟩ := hr.pure
      exact ⟨List.nil_prefix, fun _ h => absurd h (by simp)⟩
    | some conn =>
      have := along_bind (along_connecting p .info (b! "socket connected") []) (fun _ => along_pure (Except.ok (ε := ErrorKind) conn.fd)) hr
      exact ⟨this.1, fun _ h => this.2 _ h⟩
  have hd : records (.note ⟨.info, b! "socket waiting for pair to connect...", [] ++ connecting p⟩ :: t4) =
      [about p.env .info (b! "socket waiting for pair to connect...") [(b! "socket_path", .text p.socketPath)]] ++
      records t4 := rfl
  rw [hd]
  refine ⟨(List.prefix_append_right_inj _).2 ((List.prefix_append_right_inj [_]).2 key.1), fun fd h => ?_⟩
  rw [key.2 fd h]
  rfl

/-- The conversation. -/
theorem prompt_trace {p : Pair} {spec : TemplateSpec} {fd : Nat} {o t} (hr : LRuns (remotePairPrompt p spec fd) o t) :
    (∃ b, (b = 121 ∨ b = 89) ∧ o = .ok (.ok ()) ∧ records t = asking p.env b ++ [about p.env .info (b! "remote pair approved session")]) ∨
    (∃ b e, ¬ (b = 121 ∨ b = 89) ∧ o = .ok (.error e) ∧
      records t = asking p.env b ++ [about p.env .warning (b! "remote pair declined session")]) ∨
    (∃ b, (o = .panic ∨ o = .killed ∨ ∃ e, o = .ok (.error e)) ∧ records t <+: asking p.env b) := by
  unfold remotePairPrompt at hr
  have np : ∀ {l : List Record} {h : Hist}, records (acts h) <+: l := by intro l h; rw [records_acts']; exact List.nil_prefix
  inv LRuns.lift_bind hr with ⟨x, h1, t1, _, hr, rfl⟩ | ⟨rfl, h1, _, rfl⟩ | ⟨rfl, h1, _, rfl⟩
  case inr.inl => exact Or.inr (Or.inr ⟨0, Or.inl rfl, np⟩)
  case inr.inr => exact Or.inr (Or.inr ⟨0, Or.inr (Or.inl rfl), np⟩)
  rw [records_append, records_acts', List.nil_append]
  inv LRuns.psay_bind hr with ⟨t2, hr, rfl⟩
  inv LRuns.psay_bind hr with ⟨t1, hr, rfl⟩
  have two : ∀ {h : Hist} {b}, records (.note ⟨.trace, b! "remote prompt loaded", [] ++ session p.env⟩ ::
      .note ⟨.trace, b! "remote prompt evaluated", [] ++ session p.env⟩ :: acts h) <+: asking p.env b := by
    intro h b
    show [about p.env .trace (b! "remote prompt loaded"), about p.env .trace (b! "remote prompt evaluated")] ++ records (acts h) <+: _
    rw [records_acts']
    exact List.prefix_append [about p.env .trace (b! "remote prompt loaded"), about p.env .trace (b! "remote prompt evaluated")] _
  inv LRuns.lift_bind hr with ⟨w, h2, t2, _, hr, rfl⟩ | ⟨rfl, h2, _, rfl⟩ | ⟨rfl, h2, _, rfl⟩
  case inr.inl => exact Or.inr (Or.inr ⟨0, Or.inl rfl, two⟩)
  case inr.inr => exact Or.inr (Or.inr ⟨0, Or.inr (Or.inl rfl), two⟩)
  cases w with
  | false =>
    obtain ⟨rfl, rfl⟩ := hr.pure
    rw [List.append_nil]
    exact Or.inr (Or.inr ⟨0, Or.inr (Or.inr ⟨_, rfl⟩), two⟩)
  | true =>
  rw [if_pos rfl] at hr
  inv LRuns.lift_bind hr with ⟨w, h3, t3, _, hr, rfl⟩ | ⟨rfl, h3, _, rfl⟩ | ⟨rfl, h3, _, rfl⟩
  case inr.inl => rw [← acts_append]; exact Or.inr (Or.inr ⟨0, Or.inl rfl, two⟩)
  case inr.inr => rw [← acts_append]; exact Or.inr (Or.inr ⟨0, Or.inr (Or.inl rfl), two⟩)
  rw [← List.append_assoc, ← acts_append]
  generalize h2 ++ h3 = h2 at *
  cases w with
  | false =>
    obtain ⟨rfl, rfl⟩ := hr.pure
    rw [List.append_nil]
    exact Or.inr (Or.inr ⟨0, Or.inr (Or.inr ⟨_, rfl⟩), two⟩)
  | true =>
  rw [if_pos rfl] at hr
  inv LRuns.psay_bind hr with ⟨t4, hr, rfl⟩
  inv LRuns.psay_bind hr with ⟨t3, hr, rfl⟩
  have hd : ∀ t : List Entry, records (.note ⟨.trace, b! "remote prompt loaded", [] ++ session p.env⟩ ::
      .note ⟨.trace, b! "remote prompt evaluated", [] ++ session p.env⟩ :: (acts h2 ++
      .note ⟨.trace, b! "remote prompt rendered", [] ++ session p.env⟩ ::
      .note ⟨.debug, b! "remote prompt awaiting response...", [] ++ session p.env⟩ :: t)) =
      [about p.env .trace (b! "remote prompt loaded"), about p.env .trace (b! "remote prompt evaluated"),
       about p.env .trace (b! "remote prompt rendered"), about p.env .debug (b! "remote prompt awaiting response...")] ++
      records t := by
    intro t
    simp only [records, records_append, records_acts']
    rfl
  rw [hd]
  have four : ∀ {b}, [about p.env .trace (b! "remote prompt loaded"), about p.env .trace (b! "remote prompt evaluated"),
       about p.env .trace (b! "remote prompt rendered"), about p.env .debug (b! "remote prompt awaiting response...")] <+:
      asking p.env b := fun {b} => ⟨[_], rfl⟩
  inv LRuns.lift_bind hr with ⟨r, h4, t4, _, hr, rfl⟩ | ⟨rfl, h4, _, rfl⟩ | ⟨rfl, h4, _, rfl⟩
  case inr.inl => rw [records_acts', List.append_nil]; exact Or.inr (Or.inr ⟨0, Or.inl rfl, four⟩)
  case inr.inr => rw [records_acts', List.append_nil]; exact Or.inr (Or.inr ⟨0, Or.inr (Or.inl rfl), four⟩)
  rw [records_append, records_acts', List.nil_append]
  cases hb : Pair.responseByte r with
  | none =>
    rw [hb] at hr
    obtain ⟨rfl, rfl⟩ := hr.pure
    rw [show records [] = [] from rfl, List.append_nil]
    exact Or.inr (Or.inr ⟨0, Or.inr (Or.inr ⟨_, rfl⟩), four⟩)
  | some b =>
  rw [hb] at hr
  inv LRuns.psay_bind hr with ⟨t5, hr, rfl⟩
  have hd : ∀ t : List Entry, [about p.env .trace (b! "remote prompt loaded"), about p.env .trace (b! "remote prompt evaluated"),
       about p.env .trace (b! "remote prompt rendered"), about p.env .debug (b! "remote prompt awaiting response...")] ++
       records (.note ⟨.debug, b! "remote pair responded", [(b! "response", .text [b])] ++ session p.env⟩ :: t) =
      asking p.env b ++ records t := fun t => rfl
  rw [hd]
  clear hd four two np
  inv LRuns.lift_bind hr with ⟨w, h5, t5, _, hr, rfl⟩ | ⟨rfl, h5, _, rfl⟩ | ⟨rfl, h5, _, rfl⟩
  case inr.inl => rw [records_acts', List.append_nil]; exact Or.inr (Or.inr ⟨b, Or.inl rfl, List.prefix_refl _⟩)
  case inr.inr => rw [records_acts', List.append_nil]; exact Or.inr (Or.inr ⟨b, Or.inr (Or.inl rfl), List.prefix_refl _⟩)
  rw [records_append, records_acts', List.nil_append]
  inv LRuns.lift_bind hr with ⟨w, h6, t6, _, hr, rfl⟩ | ⟨rfl, h6, _, rfl⟩ | ⟨rfl, h6, _, rfl⟩
  case inr.inl => rw [records_acts', List.append_nil]; exact Or.inr (Or.inr ⟨b, Or.inl rfl, List.prefix_refl _⟩)
  case inr.inr => rw [records_acts', List.append_nil]; exact Or.inr (Or.inr ⟨b, Or.inr (Or.inl rfl), List.prefix_refl _⟩)
  rw [records_append, records_acts', List.nil_append]
  split at hr
  · rename_i hy
    inv LRuns.psay_bind hr with ⟨t7, hr, rfl⟩
    obtain ⟨rfl, rfl⟩ := hr.pure
    exact Or.inl ⟨b, hy, rfl, rfl⟩
  · rename_i hy
    inv LRuns.psay_bind hr with ⟨t7, hr, rfl⟩
    obtain ⟨rfl, rfl⟩ := hr.pure
    exact Or.inr (Or.inl ⟨b, _, hy, rfl, rfl⟩)

theorem openPair_trace {rt : Rt} {p : Pair} {o t} (hr : LRuns (openPair rt p) o t) :
    (o = .panic ∧ p.isExempt rt.debug = none ∧ records t = [leaving p.env]) ∨
    (p.isExempt rt.debug ≠ none ∧
      ((∃ q b full, o = .ok (.ok q) ∧ q.env = p.env ∧ Course (Detailed rt) p.env p.options p.socketPath true b full ∧
          prologue p.env p.options ++ records t = full) ∨
       ((o = .panic ∨ ∃ e, o = .ok (.error e)) ∧
          StopsShort (Detailed rt) p.env p.options p.socketPath (prologue p.env p.options ++ records t)) ∨
       (o = .killed ∧ CutOff (Detailed rt) p.env p.options p.socketPath (prologue p.env p.options ++ records t)))) := by
  unfold openPair at hr
  inv LRuns.bind hr with ⟨b, t1, t2, h1, hr, rfl⟩ | ⟨rfl, h1⟩ | ⟨rfl, h1⟩
  case inr.inl =>
    left
    rcases h1.onUnwind with ⟨_, h⟩ | ⟨t1, t2, o2, h4, h2, rfl, h3⟩
    · exact absurd rfl h
    · rcases isExempt_trace h4 with ⟨_, h6, h5⟩ | ⟨_, _, _, h, _⟩
      · obtain ⟨rfl, rfl⟩ := LRuns.say h2
        exact ⟨rfl, h6, by rw [records_append, h5]; rfl⟩
      · exact absurd h (by simp)
  case inr.inr =>
    rcases h1.onUnwind with ⟨h, _⟩ | ⟨t1, t2, o2, h1, h2, rfl, ⟨h, _⟩ | ⟨_, h⟩⟩
    · rcases isExempt_trace h with ⟨h, _⟩ | ⟨_, _, _, h, _⟩ <;> exact absurd h (by simp)
    · rw [(LRuns.say h2).1] at h; exact absurd h (by simp)
    · exact absurd h (by simp)
  right
  have h1 : LRuns (Audit.isExempt rt.debug p) (.ok b) t1 := by
    rcases h1.onUnwind with ⟨h, _⟩ | ⟨_, _, _, _, _, _, ⟨_, h⟩ | ⟨_, h⟩⟩
    · exact h
    · exact absurd h (by simp)
    · exact absurd h (by simp)
  rcases isExempt_trace h1 with ⟨h, _⟩ | ⟨c, msg, own, hc, hi, hv, hf, hm⟩
  · exact absurd h (by simp)
  simp only [Out.ok.injEq] at hc
  subst hc
  refine ⟨by rw [hi]; simp, ?_⟩
  rw [records_append, hv]
  cases b with
  | true =>
    rw [if_pos rfl] at hr
    inv LRuns.psay_bind hr with ⟨t3, hr, rfl⟩
    obtain ⟨rfl, rfl⟩ := hr.pure
    exact Or.inl ⟨p, none, _, rfl, rfl, .exempt msg own hf (fun h => absurd (hm.2 h) (by simp)), rfl⟩
  | false =>
  have hmsg := hm.1 rfl
  have hown : own = [] := by
    subst hmsg
    rcases hf with ⟨_, _, _, _⟩ | ⟨_, _, _, _, _, hf⟩
    rcases hf with ⟨_, _, _, _⟩ | ⟨_, _, _, _, _, hf⟩
    rcases hf with ⟨_, _, _, _⟩ | ⟨_, _, _, _, _, hf⟩
    rcases hf with ⟨_, _, _, _⟩ | ⟨_, _, _, _, _, hf⟩
    rcases hf with ⟨_, _, _, _⟩ | ⟨_, _, _, _, _, hf⟩
    rcases hf with ⟨_, _, _, _⟩ | ⟨_, _, _, _, _, hf⟩
    rcases hf with ⟨_, _, _, _⟩ | ⟨_, _, _, _, _, hf⟩
    · rfl
    · cases hf
  subst hmsg hown
  have hne : ¬ Exempt p.env p.options := fun h => absurd ((C04_rule _ p false hi).2 h) (by simp)
  rw [if_neg (by decide)] at hr
  inv LRuns.psay_bind hr with ⟨t3, hr, rfl⟩
  split at hr
  · rename_i hug
    have hb : p.env.commandInfo.runasEuid ≠ p.env.userInfo.uid ∧ p.env.settings.runasGroup ≠ none := by
      simp only [Pair.toUserAndGroup, Pair.toUser, Pair.toExplicitGroup, Bool.and_eq_true, decide_eq_true_eq] at hug
      exact ⟨Ne.symm hug.1, fun h => by rw [h] at hug; exact absurd hug.2 (by decide)⟩
    inv LRuns.psay_bind hr with ⟨t4, hr, rfl⟩
    inv LRuns.psay_bind hr with ⟨t5, hr, rfl⟩
    obtain ⟨rfl, rfl⟩ := hr.pure
    exact Or.inr (Or.inl ⟨Or.inr ⟨_, rfl⟩, _, _, _, _, .conflict hne hb.1 hb.2, List.prefix_append _ _, List.prefix_refl _, fun h => absurd h (by simp), rfl⟩)
  simp only at hr
  -- the part of the log so far, and the ways to stop
  have hd : ∀ t : List Entry, prologue p.env p.options ++ ([about p.env .debug (b! "sudo session requires a pair") []] ++
      records (.note ⟨.info, b! "pair session required", [] ++ session p.env⟩ :: t)) =
      prologue p.env p.options ++ [about p.env .debug (b! "sudo session requires a pair"),
        about p.env .info (b! "pair session required")] ++ records t := fun t => rfl
  rw [hd]
  clear hd hv hm hf
  generalize hS : prologue p.env p.options ++ [about p.env .debug (b! "sudo session requires a pair"),
        about p.env .info (b! "pair session required")] = S
  have ask : ∀ b, asked (Detailed rt) p.env p.options p.socketPath b =
      S ++ prompting p.env ++ waiting (Detailed rt) p.env p.socketPath ++ asking p.env b := fun b => by rw [← hS]; rfl
  have pS : prologue p.env p.options <+: S := by rw [← hS]; exact List.prefix_append _ _
  have short : ∀ b pre, S <+: pre → pre <+: S ++ prompting p.env ++ waiting (Detailed rt) p.env p.socketPath ++ asking p.env b →
      StopsShort (Detailed rt) p.env p.options p.socketPath (pre ++ [leaving p.env]) := by
    intro b pre hs hp
    rw [← ask b] at hp
    by_cases hb : b = 121 ∨ b = 89
    · refine ⟨_, _, _, pre, .approved b hne hb, pS.trans hs, hp.trans (List.prefix_append _ _), fun _ h => ?_, rfl⟩
      have := hp.length_le
      rw [h, List.length_append] at this
      simp only [List.length_cons, List.length_nil] at this
      omega
    · exact ⟨_, _, _, pre, .declined b hne hb, pS.trans hs, hp.trans (List.prefix_append _ _), fun h => absurd h (by simp), rfl⟩
  have cut : ∀ b pre l, S <+: pre → pre <+: S ++ prompting p.env ++ waiting (Detailed rt) p.env p.socketPath ++ asking p.env b →
      (l = pre ∨ l = pre ++ [leaving p.env]) → CutOff (Detailed rt) p.env p.options p.socketPath l := by
    intro b pre l hs hp hl
    rw [← ask b] at hp
    by_cases hb : b = 121 ∨ b = 89
    · exact ⟨_, _, _, pre, .approved b hne hb, pS.trans hs, hp.trans (List.prefix_append _ _), hl⟩
    · exact ⟨_, _, _, pre, .declined b hne hb, pS.trans hs, hp.trans (List.prefix_append _ _), hl⟩
  have pAsk : ∀ b, prologue p.env p.options <+: asked (Detailed rt) p.env p.options p.socketPath b ++
      [about p.env .warning (b! "remote pair declined session")] := by
    intro b; rw [ask]; simp only [List.append_assoc]; exact pS.trans (List.prefix_append _ _)
  inv LRuns.bind hr with ⟨u, t4, t5, h4, hr, rfl⟩ | ⟨rfl, h4⟩ | ⟨rfl, h4⟩
  case inr.inl =>
    rcases along_unwind (along_prompt p _) h4 with ⟨_, pre, hp, hv⟩ | ⟨h, _⟩
    · refine Or.inr (Or.inl ⟨Or.inl rfl, ?_⟩)
      rw [hv, ← List.append_assoc]
      refine short 0 _ (by (try simp only [List.append_assoc]); exact List.prefix_append _ _) ?_
      simp only [List.append_assoc]
      exact (List.prefix_append_right_inj _).2 (hp.trans (List.prefix_append _ _))
    · exact absurd rfl h
  case inr.inr =>
    rcases along_unwind (along_prompt p _) h4 with ⟨h, _⟩ | ⟨_, hp, _⟩
    · exact absurd h (by simp)
    · refine Or.inr (Or.inr ⟨rfl, cut 0 _ _ (by (try simp only [List.append_assoc]); exact List.prefix_append _ _) ?_ (Or.inl rfl)⟩)
      simp only [List.append_assoc]
      exact (List.prefix_append_right_inj _).2 (hp.trans (List.prefix_append _ _))
  rcases along_unwind (along_prompt p _) h4 with ⟨h, _⟩ | ⟨_, _, hv⟩
  · exact absurd h (by simp)
  rw [records_append, hv u rfl, ← List.append_assoc]
  clear hv h4
  -- connecting
  inv LRuns.bind hr with ⟨r, t6, t7, h6, hr, rfl⟩ | ⟨rfl, h6⟩ | ⟨rfl, h6⟩
  on_goal 2 =>
    rcases h6.onUnwind with ⟨_, h⟩ | ⟨t1, t2, o2, h7, h2, rfl, h3⟩
    · exact absurd rfl h
    · obtain ⟨rfl, rfl⟩ := LRuns.say h2
      refine Or.inr (Or.inl ⟨Or.inl rfl, ?_⟩)
      rw [records_append, ← List.append_assoc]
      refine short 0 _ (by (try simp only [List.append_assoc]); exact List.prefix_append _ _) ?_
      rw [List.append_assoc _ (waiting _ _ _)]
      exact (List.prefix_append_right_inj _).2 ((connect_trace h7).1.trans (List.prefix_append _ _))
  on_goal 2 =>
    rcases h6.onUnwind with ⟨h7, _⟩ | ⟨t1, t2, o2, h7, h2, rfl, ⟨h3, _⟩ | ⟨_, h3⟩⟩
    · refine Or.inr (Or.inr ⟨rfl, cut 0 _ _ (by (try simp only [List.append_assoc]); exact List.prefix_append _ _) ?_ (Or.inl rfl)⟩)
      rw [List.append_assoc _ (waiting _ _ _)]
      exact (List.prefix_append_right_inj _).2 ((connect_trace h7).1.trans (List.prefix_append _ _))
    · rw [(LRuns.say h2).1] at h3; exact absurd h3 (by simp)
    · exact absurd h3 (by simp)
  have h6 : LRuns (remotePairConnect rt p) (.ok r) t6 := by
    rcases h6.onUnwind with ⟨h, _⟩ | ⟨_, _, _, _, _, _, ⟨_, h⟩ | ⟨_, h⟩⟩
    · exact h
    · exact absurd h (by simp)
    · exact absurd h (by simp)
  rw [records_append]
  cases r with
  | error e =>
    simp only at hr
    inv LRuns.psay_bind hr with ⟨t8, hr, rfl⟩
    obtain ⟨rfl, rfl⟩ := hr.pure
    refine Or.inr (Or.inl ⟨Or.inr ⟨_, rfl⟩, ?_⟩)
    rw [← List.append_assoc]
    refine short 0 _ (by (try simp only [List.append_assoc]); exact List.prefix_append _ _) ?_
    rw [List.append_assoc _ (waiting _ _ _)]
    exact (List.prefix_append_right_inj _).2 ((connect_trace h6).1.trans (List.prefix_append _ _))
  | ok fd =>
  simp only at hr
  rw [(connect_trace h6).2 fd rfl, ← List.append_assoc]
  clear h6
  have hcl : ∀ {o t}, LRuns (L.lift (Socket.close fd)) o t → records t = [] := by
    intro o t h
    obtain ⟨_, _, rfl⟩ := h.lift
    exact records_acts' _
  inv LRuns.onUnwind hr with ⟨hr, hnp⟩ | ⟨t8, t9, o2, hr, hc, rfl, ho⟩
  · inv LRuns.bind hr with ⟨r, t8, t9, h8, hr, rfl⟩ | ⟨rfl, h8⟩ | ⟨rfl, h8⟩
    case inr.inl => exact absurd rfl hnp
    case inr.inr =>
      rcases prompt_trace h8 with ⟨_, _, h, _⟩ | ⟨_, _, _, h, _⟩ | ⟨b, _, hp⟩
      · exact absurd h (by simp)
      · exact absurd h (by simp)
      · exact Or.inr (Or.inr ⟨rfl, cut b _ _ (by (try simp only [List.append_assoc]); exact List.prefix_append _ _) ((List.prefix_append_right_inj _).2 hp) (Or.inl rfl)⟩)
    rw [records_append]
    rcases r with e | u
    · simp only at hr
      inv LRuns.psay_bind hr with ⟨t10, hr, rfl⟩
      have hv : records t10 = [] ∧ (o = .killed ∨ o = .ok (.error e)) := by
        inv LRuns.lift_bind hr with ⟨u, lv, t11, hc, hr, rfl⟩ | ⟨rfl, lv, hc, rfl⟩ | ⟨rfl, lv, hc, rfl⟩
        · obtain ⟨rfl, rfl⟩ := hr.pure
          exact ⟨by rw [records_append, records_acts']; rfl, Or.inr rfl⟩
        · rcases close_runs hc with ⟨h, _⟩ | ⟨_, h, _⟩ <;> exact absurd h (by simp)
        · exact ⟨records_acts' _, Or.inl rfl⟩
      have hl : records (.note ⟨.debug, b! "plugin exiting", [] ++ session p.env⟩ :: t10) = [leaving p.env] := by
        show _ :: records t10 = _; rw [hv.1]; rfl
      rw [hl, ← List.append_assoc]
      rcases prompt_trace h8 with ⟨_, _, h, _⟩ | ⟨b, _, hb, _, hp⟩ | ⟨b, _, hp⟩
      · exact absurd h (by simp)
      · rw [hp, ← List.append_assoc, ← ask b]
        rcases hv.2 with rfl | rfl
        · exact Or.inr (Or.inr ⟨rfl, _, _, _, _, .declined b hne hb, pAsk b, List.prefix_refl _, Or.inr rfl⟩)
        · exact Or.inr (Or.inl ⟨Or.inr ⟨_, rfl⟩, _, _, _, _, .declined b hne hb, pAsk b, List.prefix_refl _, fun h => absurd h (by simp), rfl⟩)
      · rcases hv.2 with rfl | rfl
        · exact Or.inr (Or.inr ⟨rfl, cut b _ _ (by (try simp only [List.append_assoc]); exact List.prefix_append _ _) ((List.prefix_append_right_inj _).2 hp) (Or.inr rfl)⟩)
        · exact Or.inr (Or.inl ⟨Or.inr ⟨_, rfl⟩, short b _ (by (try simp only [List.append_assoc]); exact List.prefix_append _ _) ((List.prefix_append_right_inj _).2 hp)⟩)
    · simp only at hr
      inv LRuns.psay_bind hr with ⟨t10, hr, rfl⟩
      obtain ⟨rfl, rfl⟩ := hr.pure
      rcases prompt_trace h8 with ⟨b, hb, _, hp⟩ | ⟨_, _, _, h, _⟩ | ⟨_, h | h | ⟨_, h⟩, _⟩
      · refine Or.inl ⟨_, some b, _, rfl, rfl, .approved b hne hb, ?_⟩
        rw [hp, ask b]
        simp only [List.append_assoc]
        rfl
      all_goals exact absurd h (by simp)
  · rw [records_append]
    have hv : records t9 = [leaving p.env] := by
      inv LRuns.psay_bind hc with ⟨t10, hc, rfl⟩
      show _ :: records t10 = _
      rw [hcl hc]
      rfl
    rw [hv, ← List.append_assoc]
    have hp : ∃ b, records t8 <+: asking p.env b := by
      inv LRuns.bind hr with ⟨r, t10, t11, h8, hr, rfl⟩ | ⟨_, h8⟩ | ⟨h8, _⟩
      · rcases r with e | u
        · simp only at hr
          inv LRuns.psay_bind hr with ⟨t10, hr, rfl⟩
          inv LRuns.lift_bind hr with ⟨u, lv, t11, hc, hr, rfl⟩ | ⟨_, lv, hc, rfl⟩ | ⟨h, _⟩
          · exact absurd hr.pure.1 (by simp)
          · rcases close_runs hc with ⟨h, _⟩ | ⟨_, h, _⟩ <;> exact absurd h (by simp)
          · exact absurd h (by simp)
        · simp only at hr
          inv LRuns.psay_bind hr with ⟨t10, hr, rfl⟩
          exact absurd hr.pure.1 (by simp)
      · rcases prompt_trace h8 with ⟨_, _, h, _⟩ | ⟨_, _, _, h, _⟩ | ⟨b, _, hp⟩
        · exact absurd h (by simp)
        · exact absurd h (by simp)
        · exact ⟨b, hp⟩
      · exact absurd h8 (by simp)
    obtain ⟨b, hp⟩ := hp
    rcases ho with ⟨_, rfl⟩ | ⟨_, rfl⟩
    · exact Or.inr (Or.inr ⟨rfl, cut b _ _ (by (try simp only [List.append_assoc]); exact List.prefix_append _ _) ((List.prefix_append_right_inj _).2 hp) (Or.inr rfl)⟩)
    · exact Or.inr (Or.inl ⟨Or.inl rfl, short b _ (by (try simp only [List.append_assoc]); exact List.prefix_append _ _) ((List.prefix_append_right_inj _).2 hp)⟩)

/-! ### The callbacks -/

theorem course_prologue {detailed : Bool} {E : IoEnv} {o : PluginOptions} {path : Bytes} {g b full}
    (h : Course detailed E o path g b full) : prologue E o <+: full := by
  cases h
  · exact List.prefix_append _ _
  · exact List.prefix_append _ _
  all_goals unfold asked; simp only [List.append_assoc]; exact List.prefix_append _ _

theorem makeEnv_cases {rt : Rt} {a : OpenArgs} {o h} (hc : Runs (M.catchUnwind (SudoPair.Core.makeEnv rt a)) o h) :
    ((∀ env0, IoEnv.new rt a ≠ some (.ok env0)) ∧ ∀ env0, o ≠ .ok (some (.ok env0))) ∨
    (∃ env0, IoEnv.new rt a = some (.ok env0) ∧ o = .ok (some (.ok env0)) ∧ h = []) := by
  unfold SudoPair.Core.makeEnv at hc
  cases hn : IoEnv.new rt a with
  | none =>
    left
    rw [hn] at hc
    refine ⟨by simp, ?_⟩
    rintro env0 rfl
    rcases hc.catchUnwind with ⟨x, h1, h2⟩ | ⟨h1, _⟩ | ⟨h1, _⟩
    · rcases h2.bind with ⟨_, _, _, h3, _⟩ | ⟨h3, _⟩ | ⟨h3, _⟩
      · exact absurd h3.panic.1 (by simp)
      · exact absurd h3 (by simp)
      · exact absurd h3 (by simp)
    · exact absurd h1 (by simp)
    · exact absurd h1 (by simp)
  | some r =>
    rw [hn, ofOption_some_bind] at hc
    cases r with
    | error e =>
      left
      refine ⟨by simp, ?_⟩
      rintro env0 rfl
      rcases hc.catchUnwind with ⟨x, h1, h2⟩ | ⟨h1, _⟩ | ⟨h1, _⟩
      · simp only [Out.ok.injEq, Option.some.injEq] at h1
        subst h1
        simp only at h2
        rcases h2.bind with ⟨_, _, _, _, h3, _⟩ | ⟨h3, _⟩ | ⟨h3, _⟩
        · exact absurd h3.pure.1 (by simp)
        · exact absurd h3 (by simp)
        · exact absurd h3 (by simp)
      · exact absurd h1 (by simp)
      · exact absurd h1 (by simp)
    | ok env0 =>
      right
      rcases hc.catchUnwind with ⟨x, rfl, h2⟩ | ⟨_, h2⟩ | ⟨_, h2⟩
      · obtain ⟨h3, rfl⟩ := h2.pure
        simp only [Out.ok.injEq] at h3; subst h3
        exact ⟨env0, rfl, rfl, rfl⟩
      · exact absurd h2.pure.1 (by simp)
      · exact absurd h2.pure.1 (by simp)

/-- How the `open` callback goes. -/
theorem coreOpen_trace {rt : Rt} {a : OpenArgs} {st : State} {o t} (hr : LRuns (Audit.Core.open rt a st) o t) :
    (((∀ env0, IoEnv.new rt a ≠ some (.ok env0)) ∨
        ∃ env0, IoEnv.new rt a = some (.ok env0) ∧ (effEnv st env0).commandInfo.command = []) ∧ records t = []) ∨
    ∃ env0 E, IoEnv.new rt a = some (.ok env0) ∧ E = effEnv st env0 ∧ E.commandInfo.command ≠ [] ∧
      (((Pair.ofEnv E).isExempt rt.debug = none ∧ (∃ st', o = .ok (-1, st')) ∧
          records t = prologue E (.ofMap E.pluginOptions) ++ [leaving E]) ∨
       ((Pair.ofEnv E).isExempt rt.debug ≠ none ∧
        ((∃ st' b full, o = .ok (1, st') ∧ st'.plugin.isSome = true ∧
            Course (Detailed rt) E (.ofMap E.pluginOptions) (Pair.ofEnv E).socketPath true b full ∧
            records t = full ++ if st.plugin.isSome then [leaving E] else []) ∨
         ((∃ st', o = .ok (-1, st')) ∧
            StopsShort (Detailed rt) E (.ofMap E.pluginOptions) (Pair.ofEnv E).socketPath (records t)) ∨
         (o = .killed ∧ CutOff (Detailed rt) E (.ofMap E.pluginOptions) (Pair.ofEnv E).socketPath (records t))))) := by
  unfold Audit.Core.open at hr
  have hEnv : ∀ {o h}, Runs (M.catchUnwind (SudoPair.Core.makeEnv rt a)) o h →
      ((∀ env0, IoEnv.new rt a ≠ some (.ok env0)) ∧ ∀ env0, o ≠ .ok (some (.ok env0))) ∨
      (∃ env0, IoEnv.new rt a = some (.ok env0) ∧ o = .ok (some (.ok env0)) ∧ h = []) := makeEnv_cases
  inv LRuns.lift_bind hr with ⟨x, h1, t1, hm, hr, rfl⟩ | ⟨rfl, h1, hm, rfl⟩ | ⟨rfl, h1, hm, rfl⟩
  case inr.inl =>
    rcases hEnv hm with ⟨hn, _⟩ | ⟨_, _, h, _⟩
    · exact Or.inl ⟨Or.inl hn, records_acts' _⟩
    · exact absurd h (by simp)
  case inr.inr =>
    rcases hEnv hm with ⟨hn, _⟩ | ⟨_, _, h, _⟩
    · exact Or.inl ⟨Or.inl hn, records_acts' _⟩
    · exact absurd h (by simp)
  rw [records_append, records_acts', List.nil_append]
  rcases hEnv hm with ⟨hn, hne⟩ | ⟨env0, hn, h, rfl⟩
  · left
    refine ⟨Or.inl hn, ?_⟩
    rcases x with _ | _ | env1
    · rw [hr.pure.2]; rfl
    · rw [hr.pure.2]; rfl
    · exact absurd rfl (hne env1)
  simp only [Out.ok.injEq] at h
  subst h
  clear hm hEnv
  simp only at hr
  generalize hE : st.env.getD env0 = E at hr
  have hE' : effEnv st env0 = E := hE
  -- the plugin
  have key : ∀ {o t}, LRuns (Audit.Core.makePlugin rt a.hasPrintf E) o t →
      (E.commandInfo.command = [] ∧ o = .ok (.error 1) ∧ records t = []) ∨
      (E.commandInfo.command ≠ [] ∧
        (((Pair.ofEnv E).isExempt rt.debug = none ∧ o = .panic ∧
            records t = prologue E (.ofMap E.pluginOptions) ++ [leaving E]) ∨
         ((Pair.ofEnv E).isExempt rt.debug ≠ none ∧
          ((∃ p b full, o = .ok (.ok p) ∧ p.env = E ∧
              Course (Detailed rt) E (.ofMap E.pluginOptions) (Pair.ofEnv E).socketPath true b full ∧ records t = full) ∨
           ((o = .panic ∨ o = .ok (.error (-1))) ∧
              StopsShort (Detailed rt) E (.ofMap E.pluginOptions) (Pair.ofEnv E).socketPath (records t)) ∨
           (o = .killed ∧
              CutOff (Detailed rt) E (.ofMap E.pluginOptions) (Pair.ofEnv E).socketPath (records t)))))) := by
    intro o t hm
    unfold Audit.Core.makePlugin at hm
    split at hm
    · rename_i hp
      obtain ⟨rfl, rfl⟩ := hm.pure
      exact Or.inl ⟨(path_eq_nil _).1 hp, rfl, rfl⟩
    rename_i hp
    refine Or.inr ⟨fun h => hp ((path_eq_nil _).2 h), ?_⟩
    have hop : ∀ {o t}, LRuns (Audit.open rt E) o t → ∃ t', LRuns (openPair rt (Pair.ofEnv E)) o t' ∧
        records t = prologue E (.ofMap E.pluginOptions) ++ records t' := by
      intro o t h
      unfold Audit.open at h
      simp only at h
      inv LRuns.say_bind h with ⟨t1, h, rfl⟩
      inv LRuns.psay_bind h with ⟨t2, h, rfl⟩
      exact ⟨t2, h, rfl⟩
    inv LRuns.bind hm with ⟨x, t1, t2, h1, hm, rfl⟩ | ⟨rfl, h1⟩ | ⟨rfl, h1⟩
    case inr.inl =>
      obtain ⟨t', h1, hv⟩ := hop h1
      rw [hv]
      rcases openPair_trace h1 with ⟨_, hi, h⟩ | ⟨hi, ⟨_, _, _, h, _⟩ | ⟨_, h⟩ | ⟨h, _⟩⟩
      · exact Or.inl ⟨hi, rfl, by rw [h]; rfl⟩
      · exact absurd h (by simp)
      · exact Or.inr ⟨hi, Or.inr (Or.inl ⟨Or.inl rfl, h⟩)⟩
      · exact absurd h (by simp)
    case inr.inr =>
      obtain ⟨t', h1, hv⟩ := hop h1
      rw [hv]
      rcases openPair_trace h1 with ⟨h, _⟩ | ⟨hi, ⟨_, _, _, h, _⟩ | ⟨h | ⟨_, h⟩, _⟩ | ⟨_, h⟩⟩
      · exact absurd h (by simp)
      · exact absurd h (by simp)
      · exact absurd h (by simp)
      · exact absurd h (by simp)
      · exact Or.inr ⟨hi, Or.inr (Or.inr ⟨rfl, h⟩)⟩
    obtain ⟨t', h1, hv⟩ := hop h1
    rw [records_append, hv]
    rcases x with e | p
    · have hS : (Pair.ofEnv E).isExempt rt.debug ≠ none ∧ StopsShort (Detailed rt) E (.ofMap E.pluginOptions)
          (Pair.ofEnv E).socketPath (prologue E (.ofMap E.pluginOptions) ++ records t') := by
        rcases openPair_trace h1 with ⟨h, _⟩ | ⟨hi, ⟨_, _, _, h, _⟩ | ⟨_, h⟩ | ⟨h, _⟩⟩
        · exact absurd h (by simp)
        · exact absurd h (by simp)
        · exact ⟨hi, h⟩
        · exact absurd h (by simp)
      refine Or.inr ⟨hS.1, Or.inr ?_⟩
      inv LRuns.lift_bind hm with ⟨u, h2, t3, hw, hm, rfl⟩ | ⟨rfl, h2, hw, rfl⟩ | ⟨rfl, h2, hw, rfl⟩
      · obtain ⟨rfl, rfl⟩ := hm.pure
        rw [List.append_nil, records_acts', List.append_nil]
        exact Or.inl ⟨Or.inr rfl, hS.2⟩
      · rw [records_acts', List.append_nil]
        exact Or.inl ⟨Or.inl rfl, hS.2⟩
      · rw [records_acts', List.append_nil]
        obtain ⟨g, b, full, pre, h1, h2, h3, _, h5⟩ := hS.2
        exact Or.inr ⟨rfl, g, b, full, pre, h1, h2, h3, Or.inr h5⟩
    · obtain ⟨rfl, rfl⟩ := hm.pure
      rw [show records [] = [] from rfl, List.append_nil]
      rcases openPair_trace h1 with ⟨h, _⟩ | ⟨hi, ⟨q, b, full, h, hq, hc, hv⟩ | ⟨h | ⟨_, h⟩, _⟩ | ⟨h, _⟩⟩
      · exact absurd h (by simp)
      · simp only [Out.ok.injEq, Except.ok.injEq] at h
        subst h
        exact Or.inr ⟨hi, Or.inl ⟨p, b, full, rfl, hq, hc, hv⟩⟩
      · exact absurd h (by simp)
      · exact absurd h (by simp)
      · exact absurd h (by simp)
  inv LRuns.bind hr with ⟨x, t2, t3, h2, hr, rfl⟩ | ⟨rfl, h2⟩ | ⟨rfl, h2⟩
  on_goal 2 => rcases h2.catchUnwind with ⟨_, h, _⟩ | ⟨h, _⟩ | ⟨h, _⟩ <;> exact absurd h (by simp)
  on_goal 2 =>
    rcases h2.catchUnwind with ⟨_, h, _⟩ | ⟨h, _⟩ | ⟨_, h⟩
    · exact absurd h (by simp)
    · exact absurd h (by simp)
    · rcases key h with ⟨_, h, _⟩ | ⟨hc, ⟨_, h, _⟩ | ⟨hi, ⟨_, _, _, h, _⟩ | ⟨h | h, _⟩ | ⟨_, h⟩⟩⟩
      · exact absurd h (by simp)
      · exact absurd h (by simp)
      · exact absurd h (by simp)
      · exact absurd h (by simp)
      · exact absurd h (by simp)
      · exact Or.inr ⟨env0, E, hn, hE'.symm, hc, Or.inr ⟨hi, Or.inr (Or.inr ⟨rfl, h⟩)⟩⟩
  rw [records_append]
  rcases h2.catchUnwind with ⟨y, hx, h⟩ | ⟨hx, h⟩ | ⟨h, _⟩
  · simp only [Out.ok.injEq] at hx
    subst hx
    rcases key h with ⟨hc, h, hv⟩ | ⟨hc, ⟨_, h, _⟩ | ⟨hi, ⟨p, b, full, h, hpe, hC, hv⟩ | ⟨h | h, hv⟩ | ⟨h, _⟩⟩⟩
    · simp only [Out.ok.injEq] at h; subst h
      obtain ⟨rfl, rfl⟩ := hr.pure
      exact Or.inl ⟨Or.inr ⟨env0, hn, by rw [hE']; exact hc⟩, by rw [hv]; rfl⟩
    · exact absurd h (by simp)
    · simp only [Out.ok.injEq] at h; subst h
      refine Or.inr ⟨env0, E, hn, hE'.symm, hc, Or.inr ⟨hi, ?_⟩⟩
      rw [hv]
      simp only at hr
      cases hp : st.plugin with
      | none =>
        rw [hp] at hr
        obtain ⟨rfl, rfl⟩ := hr.pure
        exact Or.inl ⟨_, b, full, rfl, rfl, hC, rfl⟩
      | some q =>
        rw [hp] at hr
        simp only at hr
        have hl : ∀ {o : Out Unit} {t}, LRuns (Audit.drop p) o t → records t = [leaving E] ∧ o ≠ .panic := by
          intro o t hd
          unfold Audit.drop at hd
          inv LRuns.psay_bind hd with ⟨t', hd, rfl⟩
          obtain ⟨lv, hd2, rfl⟩ := hd.lift
          clear hd
          refine ⟨?_, ?_⟩
          · show _ :: records (acts lv) = _
            rw [records_acts', hpe]
            rfl
          · rintro rfl
            unfold Pair.drop at hd2
            cases hs : p.socket with
            | none => rw [hs] at hd2; exact absurd hd2.pure.1 (by simp)
            | some fd =>
              rw [hs] at hd2
              rcases close_runs hd2 with ⟨h, _⟩ | ⟨_, h, _⟩ <;> exact absurd h (by simp)
        inv LRuns.bind hr with ⟨u, t4, t5, hd, hr, rfl⟩ | ⟨rfl, hd⟩ | ⟨rfl, hd⟩
        · obtain ⟨rfl, rfl⟩ := hr.pure
          rw [List.append_nil, (hl hd).1]
          exact Or.inl ⟨_, b, full, rfl, rfl, hC, rfl⟩
        · exact absurd rfl (hl hd).2
        · rw [(hl hd).1]
          refine Or.inr (Or.inr ⟨rfl, true, b, full, full, hC, ?_, List.prefix_refl _, Or.inr rfl⟩)
          exact course_prologue hC
    · exact absurd h (by simp)
    · simp only [Out.ok.injEq] at h; subst h
      obtain ⟨rfl, rfl⟩ := hr.pure
      rw [show records [] = [] from rfl, List.append_nil]
      exact Or.inr ⟨env0, E, hn, hE'.symm, hc, Or.inr ⟨hi, Or.inr (Or.inl ⟨⟨_, rfl⟩, hv⟩)⟩⟩
    · exact absurd h (by simp)
  · simp only [Out.ok.injEq] at hx
    subst hx
    obtain ⟨rfl, rfl⟩ := hr.pure
    rw [show records [] = [] from rfl, List.append_nil]
    rcases key h with ⟨hc, h, hv⟩ | ⟨hc, ⟨hi, _, hv⟩ | ⟨hi, ⟨p, b, full, h, hpe, hC, hv⟩ | ⟨_, hv⟩ | ⟨h, _⟩⟩⟩
    · exact absurd h (by simp)
    · exact Or.inr ⟨env0, E, hn, hE'.symm, hc, Or.inl ⟨hi, ⟨_, rfl⟩, hv⟩⟩
    · exact absurd h (by simp)
    · exact Or.inr ⟨env0, E, hn, hE'.symm, hc, Or.inr ⟨hi, Or.inr (Or.inl ⟨⟨_, rfl⟩, hv⟩)⟩⟩
    · exact absurd h (by simp)
  · exact absurd h (by simp)

end SudoPair
