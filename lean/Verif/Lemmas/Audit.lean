import Verif.Spec.Audit
import Verif.Lemmas.Lawful
import Verif.Props.Builds
/-
Erasing the log records from a run; runs of code that logs.
-/
namespace SudoPair.Audit

variable {α β : Type}

/-- The interactions among the entries of a run. -/
def events (t : List Entry) : Hist := t.filterMap (fun | .sys e => some e | .note _ => none)

/-- The records among the entries of a run. -/
def notes (t : List Entry) : List Record := t.filterMap (fun | .sys _ => none | .note r => some r)

@[simp] theorem events_append (t u : List Entry) : events (t ++ u) = events t ++ events u :=
  List.filterMap_append ..
@[simp] theorem notes_append (t u : List Entry) : notes (t ++ u) = notes t ++ notes u :=
  List.filterMap_append ..
@[simp] theorem events_sys (h : Hist) : events (h.map .sys) = h := by
  induction h with
  | nil => rfl
  | cons e h ih => simp only [events, List.map_cons, List.filterMap_cons] at *; rw [ih]
@[simp] theorem notes_sys (h : Hist) : notes (h.map .sys) = [] := by
  induction h with
  | nil => rfl
  | cons e h ih => simp only [notes, List.map_cons, List.filterMap_cons] at *; exact ih

theorem L.bind_def (m : L α) (f : α → L β) (s : Sched) :
    (m >>= f) s = match m s with
      | (.ok a, h, s')   => ((f a s').1, h ++ (f a s').2.1, (f a s').2.2)
      | (.panic, h, s')  => (.panic, h, s')
      | (.killed, h, s') => (.killed, h, s') := rfl

theorem L.erase_def (m : L α) (s : Sched) : L.erase m s = ((m s).1, events (m s).2.1, (m s).2.2) := rfl

@[simp] theorem erase_pure (a : α) : L.erase (pure a : L α) = pure a := rfl

@[simp] theorem erase_bind (m : L α) (f : α → L β) : L.erase (m >>= f) = L.erase m >>= fun a => L.erase (f a) := by
  funext s
  simp only [L.erase_def, L.bind_def, M.bind_def]
  rcases m s with ⟨a | _ | _, h, s'⟩
  · simp only [events_append]
  · rfl
  · rfl

@[simp] theorem erase_lift (m : M α) : L.erase (L.lift m) = m := by
  funext s
  simp only [L.erase_def, L.lift]
  rw [events_sys]

@[simp] theorem erase_say (ctx : Fields) (l : Level) (m : Bytes) (o : Fields) :
    L.erase (L.say ctx l m o) = pure () := rfl

@[simp] theorem erase_say' (p : Pair) (l : Level) (m : Bytes) (o : Fields) :
    L.erase (say p l m o) = pure () := rfl

@[simp] theorem erase_catchUnwind (m : L α) : L.erase (L.catchUnwind m) = M.catchUnwind (L.erase m) := by
  funext s
  simp only [L.erase_def, L.catchUnwind, M.catchUnwind]
  rcases m s with ⟨a | _ | _, h, s'⟩ <;> rfl

@[simp] theorem erase_onUnwind (m : L α) (c : L Unit) :
    L.erase (L.onUnwind m c) = M.onUnwind (L.erase m) (L.erase c) := by
  funext s
  simp only [L.erase_def, L.onUnwind, M.onUnwind]
  rcases m s with ⟨a | _ | _, h, s'⟩
  · rfl
  · simp only
    rcases c s' with ⟨a | _ | _, h', s''⟩ <;> simp only [events_append]
  · rfl

@[simp] theorem erase_ite (c : Prop) [Decidable c] (m n : L α) :
    L.erase (if c then m else n) = if c then L.erase m else L.erase n := by split <;> rfl

@[simp] theorem onUnwind_pure (m : M α) : M.onUnwind m (pure ()) = m := by
  funext s
  unfold M.onUnwind
  rcases m s with ⟨a | _ | _, h, s'⟩
  · rfl
  · show (_, h ++ [], _) = _; rw [List.append_nil]
  · rfl

/-! ### Runs -/

/-- `m` can end with outcome `o` after the entries `t`. -/
def LRuns (m : L α) (o : Out α) (t : List Entry) : Prop := ∃ s, (m s).1 = o ∧ (m s).2.1 = t

theorem lruns_of {m : L α} {s : Sched} {o t s'} (hm : m s = (o, t, s')) : LRuns m o t :=
  ⟨s, by rw [hm], by rw [hm]⟩

theorem LRuns.erase {m : L α} {o t} (hr : LRuns m o t) : Runs (L.erase m) o (events t) := by
  obtain ⟨s, rfl, rfl⟩ := hr
  exact ⟨s, rfl, rfl⟩

theorem LRuns.pure {a : α} {o t} (hr : LRuns (pure a : L α) o t) : o = .ok a ∧ t = [] := by
  obtain ⟨s, h1, h2⟩ := hr; exact ⟨h1.symm, h2.symm⟩

theorem LRuns.lift {m : M α} {o t} (hr : LRuns (L.lift m) o t) : ∃ h, Runs m o h ∧ t = h.map .sys := by
  obtain ⟨s, h1, h2⟩ := hr
  exact ⟨(m s).2.1, ⟨s, h1, rfl⟩, h2.symm⟩

theorem LRuns.say {ctx l m own o t} (hr : LRuns (L.say ctx l m own) o t) :
    o = .ok () ∧ t = [.note ⟨l, m, own ++ ctx⟩] := by
  obtain ⟨s, h1, h2⟩ := hr; exact ⟨h1.symm, h2.symm⟩

theorem LRuns.bind {m : L α} {f : α → L β} {o t} (hr : LRuns (m >>= f) o t) :
    (∃ a t1 t2, LRuns m (.ok a) t1 ∧ LRuns (f a) o t2 ∧ t = t1 ++ t2) ∨
    (o = .panic ∧ LRuns m .panic t) ∨ (o = .killed ∧ LRuns m .killed t) := by
  obtain ⟨s, h1, h2⟩ := hr
  rw [L.bind_def] at h1 h2
  rcases hm : m s with ⟨a | _ | _, t', s'⟩ <;> rw [hm] at h1 h2 <;> simp only at h1 h2
  · exact Or.inl ⟨a, t', _, lruns_of hm, ⟨s', h1, rfl⟩, h2.symm⟩
  · subst h1 h2; exact Or.inr (Or.inl ⟨rfl, lruns_of hm⟩)
  · subst h1 h2; exact Or.inr (Or.inr ⟨rfl, lruns_of hm⟩)

theorem LRuns.say_bind {ctx l m own} {f : Unit → L β} {o t} (hr : LRuns (L.say ctx l m own >>= f) o t) :
    ∃ t', LRuns (f ()) o t' ∧ t = .note ⟨l, m, own ++ ctx⟩ :: t' := by
  rcases hr.bind with ⟨a, t1, t2, h1, h2, rfl⟩ | ⟨_, h1⟩ | ⟨_, h1⟩
  · obtain ⟨_, rfl⟩ := h1.say; exact ⟨t2, h2, rfl⟩
  · exact absurd h1.say.1 (by simp)
  · exact absurd h1.say.1 (by simp)

theorem LRuns.catchUnwind {m : L α} {o t} (hr : LRuns (L.catchUnwind m) o t) :
    (∃ a, o = .ok (some a) ∧ LRuns m (.ok a) t) ∨ (o = .ok none ∧ LRuns m .panic t) ∨
    (o = .killed ∧ LRuns m .killed t) := by
  obtain ⟨s, h1, h2⟩ := hr
  unfold L.catchUnwind at h1 h2
  rcases hm : m s with ⟨a | _ | _, t', s'⟩ <;> rw [hm] at h1 h2 <;> simp only at h1 h2 <;> subst h1 h2
  · exact Or.inl ⟨a, rfl, lruns_of hm⟩
  · exact Or.inr (Or.inl ⟨rfl, lruns_of hm⟩)
  · exact Or.inr (Or.inr ⟨rfl, lruns_of hm⟩)

theorem LRuns.onUnwind {m : L α} {c : L Unit} {o t} (hr : LRuns (L.onUnwind m c) o t) :
    (LRuns m o t ∧ o ≠ .panic) ∨
    (∃ t1 t2 o2, LRuns m .panic t1 ∧ LRuns c o2 t2 ∧ t = t1 ++ t2 ∧
      ((o2 = .killed ∧ o = .killed) ∨ (o2 ≠ .killed ∧ o = .panic))) := by
  obtain ⟨s, h1, h2⟩ := hr
  unfold L.onUnwind at h1 h2
  rcases hm : m s with ⟨a | _ | _, t', s'⟩ <;> rw [hm] at h1 h2 <;> simp only at h1 h2
  · subst h1 h2; exact Or.inl ⟨lruns_of hm, by simp⟩
  · right
    rcases hc : c s' with ⟨a | _ | _, u, s''⟩ <;> rw [hc] at h1 h2 <;> simp only at h1 h2
    · exact ⟨t', u, _, lruns_of hm, lruns_of hc, h2.symm, Or.inr ⟨by simp, h1.symm⟩⟩
    · exact ⟨t', u, _, lruns_of hm, lruns_of hc, h2.symm, Or.inr ⟨by simp, h1.symm⟩⟩
    · exact ⟨t', u, _, lruns_of hm, lruns_of hc, h2.symm, Or.inl ⟨rfl, h1.symm⟩⟩
  · subst h1 h2; exact Or.inl ⟨lruns_of hm, by simp⟩

/-! ### Entry-wise invariants -/

/-- Every entry of every run of `m` satisfies `P`. -/
def AllEnt (P : Entry → Prop) (m : L α) : Prop := ∀ s, ∀ e ∈ (m s).2.1, P e

variable {P : Entry → Prop}

theorem AllEnt.of {m : L α} (hm : AllEnt P m) {o t} (hr : LRuns m o t) : ∀ e ∈ t, P e := by
  obtain ⟨s, _, rfl⟩ := hr; exact hm s

theorem allEnt_pure (a : α) : AllEnt P (pure a : L α) := fun _ _ h => by cases h

theorem allEnt_lift {m : M α} (h : AllEv (fun e => P (.sys e)) m) : AllEnt P (L.lift m) := by
  intro s e he
  obtain ⟨x, hx, rfl⟩ := List.mem_map.1 he
  exact h.of_runs ⟨s, rfl, rfl⟩ x hx

theorem allEnt_say {ctx l m own} (h : P (.note ⟨l, m, own ++ ctx⟩)) : AllEnt P (L.say ctx l m own) := by
  intro s e he
  cases he with
  | head => exact h
  | tail _ he => cases he

theorem allEnt_bind {m : L α} {f : α → L β} (hm : AllEnt P m) (hf : ∀ a, AllEnt P (f a)) :
    AllEnt P (m >>= f) := by
  intro s e he
  rw [L.bind_def] at he
  have := hm s
  rcases h : m s with ⟨a | _ | _, t', s'⟩ <;> rw [h] at he this <;> simp only at he this
  · rcases List.mem_append.1 he with he | he
    · exact this e he
    · exact hf a s' e he
  · exact this e he
  · exact this e he

theorem allEnt_ite {c : Prop} [Decidable c] {m n : L α} (hm : AllEnt P m) (hn : AllEnt P n) :
    AllEnt P (if c then m else n) := by split <;> assumption

theorem allEnt_onUnwind {m : L α} {c : L Unit} (hm : AllEnt P m) (hc : AllEnt P c) :
    AllEnt P (L.onUnwind m c) := by
  intro s e he
  rcases LRuns.onUnwind (m := m) (c := c) ⟨s, rfl, rfl⟩ with ⟨h, _⟩ | ⟨t1, t2, o2, h1, h2, h3, _⟩
  · exact hm.of h e he
  · rw [h3] at he
    rcases List.mem_append.1 he with he | he
    · exact hm.of h1 e he
    · exact hc.of h2 e he

open Spec in
@[simp] theorem view_append (t u : List Entry) : view (t ++ u) = view t ++ view u := List.filter_append ..
open Spec in
@[simp] theorem view_acts (h : Hist) : view (h.map .sys) = acts h := by
  unfold acts view
  rw [List.filter_eq_self]
  intro e he
  obtain ⟨x, _, rfl⟩ := List.mem_map.1 he
  rfl

open Spec in
/-- Where nothing lasting is recorded only the interactions remain. -/
theorem view_events {t : List Entry} (h : ∀ e ∈ t, ∀ r, e = .note r → Lasting r.level = false) :
    view t = acts (events t) := by
  induction t with
  | nil => rfl
  | cons e t ih =>
    have ih := ih fun e he => h e (.tail _ he)
    cases e with
    | sys e => show _ :: view t = _ :: acts (events t); rw [ih]
    | note r =>
      have hr := h _ (.head _) r rfl
      show (List.filter _ (_ :: t)) = acts (events t)
      rw [List.filter_cons_of_neg (by simp [hr])]
      exact ih

/-! ### Erasure -/

theorem erase_isExempt (d : Bool) (p : Pair) : L.erase (isExempt d p) = M.ofOption (p.isExempt d) := by
  unfold isExempt Pair.isExempt
  simp only [erase_ite, erase_bind, erase_say', erase_pure, erase_lift, pure_bind]
  split
  · rfl
  rcases p.toThemselves d with _ | _ | _
  · rfl
  · simp only [ofOption_some_bind]
    rw [if_neg (by decide)]
    split
    · rfl
    split
    · rfl
    split
    · rfl
    rcases p.toEnforcedGid d with _ | _ | _
    · rfl
    · rfl
    · rfl
  · rfl

theorem erase_localPairPrompt (p : Pair) (spec : TemplateSpec) :
    L.erase (localPairPrompt p spec) = p.localPairPrompt spec := by
  unfold localPairPrompt Pair.localPairPrompt
  simp only [erase_ite, erase_bind, erase_say', erase_pure, erase_lift, pure_bind]

theorem erase_initializing (rt : Rt) (p : Pair) :
    L.erase (initializing rt p) = if Level.compiled rt.maxLevel .debug then M.ofOption p.socketMode >>= fun _ => pure () else pure () := by
  unfold initializing
  rw [erase_ite]
  simp only [erase_bind, erase_say, erase_pure, erase_lift]

theorem erase_remotePairConnect (rt : Rt) (p : Pair) :
    L.erase (remotePairConnect rt p) = p.remotePairConnect rt := by
  unfold remotePairConnect Pair.remotePairConnect
  simp only [erase_bind, erase_say, erase_lift, erase_initializing]
  have hm : ∀ f : Nat → M (Except ErrorKind Nat),
      ((if Level.compiled rt.maxLevel .debug then M.ofOption p.socketMode >>= fun _ => pure () else pure () : M Unit) >>= fun _ =>
        (pure () : M Unit) >>= fun _ => M.ofOption p.socketMode >>= f) = M.ofOption p.socketMode >>= f := by
    intro f
    cases Level.compiled rt.maxLevel .debug <;> cases p.socketMode <;> rfl
  refine (hm _).trans ?_
  congr 1; funext mode; congr 1; funext r
  cases r <;> simp

theorem erase_remotePairPrompt (p : Pair) (spec : TemplateSpec) (fd : Nat) :
    L.erase (remotePairPrompt p spec fd) = p.remotePairPrompt spec fd := by
  unfold remotePairPrompt Pair.remotePairPrompt
  simp only [erase_ite, erase_bind, erase_say', erase_pure, erase_lift, pure_bind]
  congr 1; funext t; congr 1; funext w
  split
  · congr 1; funext f
    split
    · congr 1; funext r
      cases Pair.responseByte r <;> simp
    · rfl
  · rfl

theorem erase_exiting (p : Pair) : L.erase (exiting p) = pure () := rfl

theorem erase_open (rt : Rt) (env : IoEnv) : L.erase (Audit.open rt env) = Pair.open rt env := by
  unfold Audit.open openPair Pair.open
  simp only [erase_ite, erase_bind, erase_say, erase_say', erase_pure, erase_lift, pure_bind, erase_onUnwind,
    erase_isExempt, erase_exiting, onUnwind_pure, erase_localPairPrompt, erase_remotePairConnect]
  congr 1; funext e
  split
  · rfl
  split
  · rfl
  congr 1; funext _; congr 1; funext r
  cases r with
  | error e => simp [erase_exiting]
  | ok fd =>
    simp only [erase_onUnwind, erase_bind, erase_remotePairPrompt, erase_exiting, pure_bind, erase_lift]
    congr 1
    congr 1; funext r
    cases r <;> simp [erase_exiting]

theorem erase_logOutput (p : Pair) (b : Bytes) : L.erase (logOutput p b) = p.logOutput b := by
  unfold logOutput
  rw [erase_bind, erase_lift]
  conv => rhs; rw [← bind_pure (p.logOutput b)]
  congr 1; funext r
  cases r <;> simp

theorem erase_logStdin (rt : Rt) (p : Pair) : L.erase (logStdin rt p) = p.logStdin rt := by
  unfold logStdin Pair.logStdin
  simp only [erase_bind, erase_ite, erase_isExempt, erase_pure]

theorem erase_handler (rt : Rt) (p : Pair) (b : Bytes) (f : Facility) :
    L.erase (handler rt p b f) = SudoPair.Core.handler rt p b f := by
  cases f
  · rfl
  · exact erase_logOutput p b
  · exact erase_logStdin rt p
  · exact erase_logOutput p b
  · exact erase_logOutput p b

theorem erase_close (p : Pair) : L.erase (close p) = p.close := by
  unfold close Pair.close
  cases p.socket <;> simp [erase_exiting]

theorem erase_step (rt : Rt) (c : SudoPair.Core.Call) (st : State) :
    L.erase (Core.step rt c st) = SudoPair.Core.step rt c st := by
  cases c with
  | «open» a =>
    show L.erase (Core.open rt a st) = SudoPair.Core.open rt a st
    unfold Core.open SudoPair.Core.open
    simp only [erase_bind, erase_lift]
    congr 1; funext r
    rcases r with _ | _ | env
    · rfl
    · rfl
    · simp only [erase_bind, erase_catchUnwind]
      have hm : ∀ e, L.erase (Core.makePlugin rt a.hasPrintf e) = SudoPair.Core.makePlugin rt a.hasPrintf e := by
        intro e
        unfold Core.makePlugin SudoPair.Core.makePlugin
        simp only [erase_ite, erase_pure, erase_bind, erase_open]
        congr 1; congr 1; funext r
        cases r <;> simp
      rw [hm]
      congr 1; funext r
      rcases r with _ | _ | p
      · rfl
      · rfl
      · cases st.plugin with
        | none => rfl
        | some q => simp [drop, erase_exiting]
  | close =>
    show L.erase (do let st ← Core.close st; pure (0, st)) = (do let st ← SudoPair.Core.close st; pure (0, st))
    unfold Core.close SudoPair.Core.close
    cases st.plugin <;> simp [erase_close]
  | showVersion => simp [Core.step, SudoPair.Core.step]
  | log f b =>
    show L.erase (do let r ← Core.log rt f b st; pure (r, st)) = (do let r ← SudoPair.Core.log rt f b st; pure (r, st))
    unfold Core.log SudoPair.Core.log
    simp only [erase_bind, erase_catchUnwind, erase_lift, erase_ite, erase_pure, erase_handler]
  | changeWinsize l c =>
    show L.erase (do let r ← Core.changeWinsize l c st; pure (r, st)) = (do let r ← SudoPair.Core.changeWinsize l c st; pure (r, st))
    unfold Core.changeWinsize SudoPair.Core.changeWinsize Pair.changeWinsize
    simp only [erase_bind, erase_catchUnwind, erase_lift, erase_pure, erase_logOutput]

theorem erase_run (rt : Rt) (cs : List SudoPair.Core.Call) (st : State) :
    L.erase (Core.run rt cs st) = SudoPair.Core.run rt cs st := by
  induction cs generalizing st with
  | nil => rfl
  | cons c cs ih =>
    unfold Core.run SudoPair.Core.run
    rw [erase_bind, erase_step]
    congr 1; funext ⟨r, st'⟩
    simp [ih]

end SudoPair.Audit
