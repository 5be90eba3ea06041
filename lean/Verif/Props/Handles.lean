import Verif.Lemmas.Handles
import Verif.Lemmas.Scenario
import Verif.Props.Session
/-
C78: descriptors.
-/
namespace SudoPair.Handles

variable {n : Nat} {l : List Handle}

theorem keeps_printCall {e : Ev} (h : PrintCall e.call) : Keeps n l e := by
  rcases e with ⟨c, r⟩
  cases c <;> first | exact False.elim h | rfl

theorem keeps_prints {α : Type} {m : M α} (h : AllEv (fun e => PrintCall e.call) m) : AllEv (Keeps n l) m :=
  allEv_mono h fun _ => keeps_printCall

theorem keeps_unlink (path : Bytes) : AllEv (Keeps n l) (Socket.unlink path) := by
  unfold Socket.unlink
  refine allEv_bind (allEv_sys fun r => rfl) fun r => ?_
  split
  · exact allEv_sys fun r => rfl
  · exact allEv_pure _
  · exact allEv_pure _

theorem keeps_enforceOwnership (rt : Rt) (path : Bytes) : AllEv (Keeps n l) (Socket.enforceOwnership rt path) := by
  unfold Socket.enforceOwnership
  split
  · exact allEv_pure _
  · refine allEv_ite (allEv_pure _) (allEv_bind (allEv_sys fun r => rfl) fun r => ?_)
    split
    · exact allEv_pure _
    · exact allEv_ite (allEv_pure _) (allEv_ite (allEv_pure _) (allEv_ite (allEv_pure _) (allEv_pure _)))

theorem keeps_ctrlC {α : Type} {m : M α} (h : AllEv (Keeps n l) m) : AllEv (Keeps n l) (ctrlCAborts m) := by
  unfold ctrlCAborts
  refine allEv_bind (allEv_sys fun r => rfl) fun r => ?_
  split
  · exact allEv_pure _
  · refine allEv_bind (allEv_sys fun r => rfl) fun b => allEv_ite ?_ (allEv_pure _)
    exact allEv_bind h fun x => allEv_bind (allEv_sys fun r => rfl) fun b => allEv_ite (allEv_pure _) (allEv_pure _)

theorem need_of {x : Handle} (h : x ∈ l) : need x l = some l := if_pos h

theorem keeps_write {fd : Nat} (h : .connected fd ∈ l) (buf : Bytes) : AllEv (Keeps n l) (Socket.writeAll fd buf) := by
  refine allEv_writeAll (fun b => ?_) buf
  unfold Socket.write
  refine allEv_bind (keeps_ctrlC (allEv_sys fun r => need_of h)) fun r => ?_
  cases r <;> exact allEv_pure _

theorem keeps_read {fd : Nat} (h : .connected fd ∈ l) (len : Nat) : AllEv (Keeps n l) (Socket.read fd len) := by
  unfold Socket.read
  refine allEv_bind (keeps_ctrlC (allEv_sys fun r => need_of h)) fun r => ?_
  cases r <;> exact allEv_pure _

theorem keeps_flush : AllEv (Keeps n l) Socket.flush := by
  unfold Socket.flush
  refine allEv_bind (keeps_ctrlC (allEv_pure _)) fun r => ?_
  cases r <;> exact allEv_pure _

theorem keeps_remotePairPrompt {fd : Nat} (h : .connected fd ∈ l) (p : Pair) (spec : TemplateSpec) :
    AllEv (Keeps n l) (p.remotePairPrompt spec fd) := by
  unfold Pair.remotePairPrompt
  refine allEv_bind (allEv_sys fun r => rfl) fun t => allEv_bind (keeps_write h _) fun w => allEv_ite ?_ (allEv_pure _)
  refine allEv_bind keeps_flush fun f => allEv_ite ?_ (allEv_pure _)
  refine allEv_bind (keeps_read h _) fun r => ?_
  split
  · exact allEv_pure _
  · exact allEv_bind (keeps_write h _) fun _ => allEv_bind (keeps_write h _) fun _ =>
      allEv_ite (allEv_pure _) (allEv_pure _)

/-- The descriptors of a session: the connection of the plugin that is stored. -/
def held (st : State) : List Handle :=
  match st.plugin with
  | some p => match p.socket with
    | some fd => [.connected fd]
    | none    => []
  | none => []

theorem keeps_finish (env : IoEnv) (r : Except ErrorKind Unit) : AllEv (Keeps n l) (SudoPair.Core.finish env r) := by
  cases r with
  | ok a => exact allEv_pure _
  | error e => exact allEv_bind (keeps_prints (writeError_prints _ _ _)) fun _ => allEv_pure _

theorem keeps_logOutput {p : Pair} (h : ∀ fd, p.socket = some fd → .connected fd ∈ l) (b : Bytes) :
    AllEv (Keeps n l) (p.logOutput b) := by
  unfold Pair.logOutput
  split
  · exact allEv_pure _
  · rename_i fd hs
    exact allEv_bind (keeps_write (h fd hs) _) fun _ => allEv_ite (allEv_pure _) (allEv_pure _)

theorem held_mem {st : State} {p : Pair} (hp : st.plugin = some p) : ∀ fd, p.socket = some fd → .connected fd ∈ held st := by
  intro fd hs
  simp [held, hp, hs]

theorem keeps_log (rt : Rt) (f : Facility) (b : Bytes) (st : State) :
    AllEv (Keeps n (held st)) (SudoPair.Core.log rt f b st) := by
  unfold SudoPair.Core.log
  refine allEv_bind (allEv_catchUnwind ?_) fun _ => allEv_pure _
  refine allEv_bind (allEv_ofOption _) fun env => ?_
  cases hp : st.plugin with
  | none => exact allEv_panic
  | some p =>
    show AllEv _ (if _ then _ else _)
    refine allEv_ite (allEv_pure _) (allEv_bind ?_ (keeps_finish env))
    have ho := fun b => keeps_logOutput (n := n) (held_mem hp) b
    cases f
    · exact allEv_pure _
    · exact ho b
    · exact allEv_bind (allEv_ofOption _) fun _ => allEv_ite (allEv_pure _) (allEv_pure _)
    · exact ho b
    · exact ho b

theorem keeps_changeWinsize (i j : Nat) (st : State) :
    AllEv (Keeps n (held st)) (SudoPair.Core.changeWinsize i j st) := by
  unfold SudoPair.Core.changeWinsize
  refine allEv_bind (allEv_catchUnwind ?_) fun _ => allEv_pure _
  refine allEv_bind (allEv_ofOption _) fun env => ?_
  cases hp : st.plugin with
  | none => exact allEv_panic
  | some p =>
    show AllEv _ (p.changeWinsize i j >>= _)
    exact allEv_bind (keeps_logOutput (held_mem hp) _) (keeps_finish env)

theorem keeps_showVersion (st : State) : AllEv (Keeps n l) (SudoPair.Core.showVersion st) := by
  unfold SudoPair.Core.showVersion
  refine allEv_bind (allEv_catchUnwind ?_) fun r => ?_
  · exact allEv_bind (allEv_ofOption _) fun env => allEv_bind (keeps_prints (writePieces_prints _ _)) fun _ => allEv_pure _
  · cases r <;> exact allEv_pure _

/-! ### Scopes -/

theorem safe_shutdown {fd : Nat} {Q : Unit → List Handle → Prop} {R : List Handle → Prop} (he : .ended fd ∉ l)
    (h : Q () (.ended fd :: l)) : Safe n (.connected fd :: l) (H.lift (Socket.close fd)) Q R := by
  unfold Socket.close
  rw [lift_bind]
  refine safe_bind (safe_sys fun r => ⟨.ended fd :: l, ?_, safe_pure h⟩)
  show (if _ then _ else (take _ _).map _) = _
  rw [if_neg (by simpa using he)]
  simp [take]

theorem safe_shutdown_again {fd : Nat} {Q : Unit → List Handle → Prop} {R : List Handle → Prop}
    (h : Q () (.ended fd :: l)) : Safe n (.ended fd :: l) (H.lift (Socket.close fd)) Q R := by
  unfold Socket.close
  rw [lift_bind]
  refine safe_bind (safe_sys fun r => ⟨.ended fd :: l, ?_, safe_pure h⟩)
  show (if _ then _ else (take _ _).map _) = _
  rw [if_pos (by simp)]

theorem after_closeStream (fd : Nat) : after n (.ended fd :: l) (.closeStream fd) = some l := by
  simp [after, take]

theorem safe_dropSocket {fd : Nat} {Q : Unit → List Handle → Prop} {R : List Handle → Prop} (he : .ended fd ∉ l)
    (h : Q () l) : Safe n (.connected fd :: l) (dropSocket fd) Q R := by
  unfold dropSocket
  exact safe_bind (safe_shutdown he (safe_closing (after_closeStream fd) h))

/-- What is open after `Socket::open`, from `l`. -/
def Opened (l : List Handle) (r : Option Conn) (l' : List Handle) : Prop :=
  l' = match r with
    | some c => .connected c.fd :: l
    | none   => l

theorem safe_acceptOne (rt : Rt) (path : Bytes) (uid gid mode fd : Nat) (hn : l.length + 2 ≤ n) :
    Safe n (.listening fd :: l) (H.lift (Socket.acceptOne rt path uid gid mode fd))
      (Opened (.listening fd :: l)) (· = .listening fd :: l) := by
  have hm : Handle.listening fd ∈ Handle.listening fd :: l := by simp
  unfold Socket.acceptOne
  split
  · exact safe_pure rfl
  rw [lift_bind]
  refine safe_bind (safe_sys fun b => ⟨_, rfl, ?_⟩)
  cases b with
  | false => exact safe_pure rfl
  | true =>
    simp only [if_true]
    rw [lift_bind]
    refine safe_bind (safe_sys fun b => ⟨_, rfl, ?_⟩)
    cases b with
    | false => exact safe_pure rfl
    | true =>
      simp only [if_true]
      split
      · exact safe_panic rfl
      rw [lift_bind]
      refine safe_bind (safe_sys fun r => ⟨_, need_of hm, ?_⟩)
      split
      · refine safe_sys fun r => ?_
        cases r with
        | none => exact ⟨_, need_of hm, rfl⟩
        | some c =>
          refine ⟨.connected c.fd :: .listening fd :: l, ?_, rfl⟩
          show (need _ _).bind (add n _) = _
          rw [need_of hm]
          exact if_pos (by simp only [List.length_cons]; omega)
      · exact safe_panic rfl
      · exact safe_pure rfl
      · exact safe_panic rfl

/-- `unlink` does not panic. -/
theorem safe_unlink {Q : Bool → List Handle → Prop} {R : List Handle → Prop} (path : Bytes) (h : ∀ b, Q b l) :
    Safe n l (H.lift (Socket.unlink path)) Q R := by
  unfold Socket.unlink
  rw [lift_bind]
  refine safe_bind (safe_sys fun r => ⟨_, rfl, ?_⟩)
  split
  · exact safe_sys fun r => ⟨_, rfl, h r⟩
  · exact safe_pure (h _)
  · exact safe_pure (h _)

theorem safe_socketOpen (rt : Rt) (path : Bytes) (uid gid mode : Nat) (hn : l.length + 2 ≤ n) :
    Safe n l (socketOpen rt path uid gid mode) (Opened l) (· = l) := by
  unfold socketOpen
  refine safe_bind (safe_keeps (keeps_enforceOwnership rt path) (fun a => ?_) rfl)
  refine safe_ite ?_ (safe_pure rfl)
  refine safe_bind (safe_keeps (keeps_unlink path) (fun a => ?_) rfl)
  refine safe_ite ?_ (safe_pure rfl)
  refine safe_bind (safe_sys fun old => ⟨_, rfl, ?_⟩)
  have hrest : ∀ (r : Option Conn) (l' : List Handle), Opened l r l' →
      Safe n l' (do
        let _ ← H.lift (Socket.unlink path)
        let _ ← H.lift (M.sys (.umask old))
        pure r) (Opened l) (· = l) := by
    intro r l' hr
    exact safe_bind (safe_unlink path fun _ => safe_bind (safe_sys fun _ => ⟨_, rfl, safe_pure hr⟩))
  refine safe_bind (safe_sys fun r => ?_)
  cases r with
  | bound fd =>
    refine ⟨.listening fd :: l, if_pos (by omega), ?_⟩
    refine safe_bind (safe_owning (safe_mono (safe_acceptOne rt path uid gid mode fd hn) ?_ ?_))
    · rintro (_ | c) l' rfl
      · exact safe_closing (l' := l) (by simp [after, take]) (hrest none _ rfl)
      · exact safe_closing (l' := .connected c.fd :: l) (by simp [after, take]) (hrest (some c) _ rfl)
    · rintro l' rfl
      exact safe_closing (l' := l) (by simp [after, take]) rfl
  | failed => exact ⟨l, rfl, safe_bind (safe_pure (hrest none l rfl))⟩
  | failLeft => exact ⟨l, rfl, safe_bind (safe_pure (hrest none l rfl))⟩

theorem safe_printPrompt (p : Pair) (prompt : Bytes) (hn : l.length + 1 ≤ n) :
    Safe n l (printPrompt p prompt) (fun _ l' => l' = l) (· = l) := by
  have hf : ∀ l : List Handle, Safe n l (H.lift (do
      let _ ← (PrintFacility.stderr p.env.hasPrintf).writeAll prompt
      pure () : M Unit)) (fun _ l' => l' = l) (· = l) := fun l =>
    safe_keeps (keeps_prints (allEv_bind (printWriteAll_prints _ _) fun _ => allEv_pure _)) (fun _ => rfl) rfl
  unfold printPrompt
  split
  · exact hf l
  · refine safe_bind (safe_sys fun b => ?_)
    cases b with
    | false => exact ⟨l, rfl, hf l⟩
    | true =>
      refine ⟨.terminal :: l, if_pos (by omega), ?_⟩
      refine safe_owning (Q := fun _ l' => l' = l) (R := (· = l)) (safe_mono
        (Q := fun _ l' => l' = .terminal :: l) (R := fun l' => l' = .terminal :: l) ?_ ?_ ?_)
      · refine safe_bind (safe_keeps ?_ (fun b => safe_ite (safe_pure rfl) (hf _)) rfl)
        exact allEv_writeAll (fun b => allEv_sys fun r => need_of (by simp)) _
      · rintro a l' rfl
        exact safe_closing (l' := l) (by simp [after, take]) rfl
      · rintro l' rfl
        exact safe_closing (l' := l) (by simp [after, take]) rfl

/-- What is open after `SudoPair::open`, from `l`. -/
def Made (l : List Handle) (r : Except ErrorKind Pair) (l' : List Handle) : Prop :=
  l' = match r with
    | .ok p    => held ⟨none, some p⟩ ++ l
    | .error _ => l

theorem safe_open (rt : Rt) (env : IoEnv) (hn : l.length + 2 ≤ n) (hl : ∀ fd, .ended fd ∉ l) :
    Safe n l (Handles.open rt env) (Made l) (· = l) := by
  unfold Handles.open
  refine safe_bind (safe_keeps (allEv_ofOption _) (fun b => ?_) rfl)
  refine safe_ite (safe_pure rfl) (safe_ite (safe_pure rfl) ?_)
  refine safe_bind (Q := Made l) ?_
  unfold localPairPrompt
  refine safe_bind (safe_sys fun t => ⟨l, rfl, ?_⟩)
  refine safe_mono (safe_printPrompt _ _ (by omega)) ?_ (fun _ h => h)
  rintro _ l' rfl
  refine safe_bind ?_
  unfold remotePairConnect
  refine safe_bind (safe_keeps (allEv_ofOption _) (fun mode => ?_) rfl)
  refine safe_bind (safe_mono (safe_socketOpen rt _ _ _ _ hn) ?_ (fun _ h => h))
  rintro (_ | c) l2 rfl
  · exact safe_pure (safe_pure rfl)
  · refine safe_pure (safe_onUnwind ?_)
    refine safe_bind (safe_keeps (keeps_remotePairPrompt (by simp) _ _) (fun r => ?_)
      (safe_dropSocket (hl _) rfl))
    cases r with
    | ok a => exact safe_pure rfl
    | error e => exact safe_bind (safe_dropSocket (hl _) (safe_pure rfl))

theorem held_ended (st : State) (fd : Nat) : .ended fd ∉ held st := by
  unfold held
  split
  · split <;> simp
  · simp

theorem held_length (st : State) : (held st).length ≤ 1 := by
  unfold held
  split
  · split <;> simp
  · simp

theorem keeps_step_log (rt : Rt) (c : SudoPair.Core.Call) (st : State) (ho : ∀ a, c ≠ .open a) (hc : c ≠ .close) :
    Safe 3 (held st) (H.lift (SudoPair.Core.step rt c st)) (fun r l => l = held r.2) (fun _ => False) := by
  have hk : AllEv (Keeps 3 (held st)) (SudoPair.Core.step rt c st) := by
    cases c with
    | «open» a => exact absurd rfl (ho a)
    | close => exact absurd rfl hc
    | showVersion => exact allEv_bind (keeps_showVersion st) fun _ => allEv_pure _
    | log f b => exact allEv_bind (keeps_log rt f b st) fun _ => allEv_pure _
    | changeWinsize i j => exact allEv_bind (keeps_changeWinsize i j st) fun _ => allEv_pure _
  have hst : ∀ r h, Runs (SudoPair.Core.step rt c st) (.ok r) h → r.2 = st := by
    intro r h hr
    cases c with
    | «open» a => exact absurd rfl (ho a)
    | close => exact absurd rfl hc
    | showVersion | log f b | changeWinsize i j =>
      rcases hr.bind with ⟨a, h1, h2, _, h4, _⟩ | ⟨h1, _⟩ | ⟨h1, _⟩
      · have := h4.pure.1
        simp only [Out.ok.injEq] at this
        rw [this]
      · simp at h1
      · simp at h1
  intro s
  have h1 := play_keeps (hk s)
  unfold H.lift
  rcases h : SudoPair.Core.step rt c st s with ⟨a | _ | _, t, s'⟩ <;> rw [h] at h1 <;> simp only at h1 ⊢
  · exact ⟨held st, h1, by rw [hst a t (runs_of h)]⟩
  · exact absurd (runs_of h) (C08_no_panic rt c st t)
  · exact ⟨held st, h1⟩

theorem safe_step (rt : Rt) (c : SudoPair.Core.Call) (st : State) :
    Safe 3 (held st) (Core.step rt c st) (fun r l => l = held r.2) (fun _ => False) := by
  have hn := held_length st
  cases c with
  | «open» a =>
    show Safe 3 _ (Core.open rt a st) _ _
    unfold Core.open
    refine safe_bind ?_
    have hlift : ∀ {α : Type} (m : M α), H.lift (M.catchUnwind m) = H.catchUnwind (H.lift m) := by
      intro α m
      funext s
      simp only [H.lift, M.catchUnwind, H.catchUnwind]
      rcases m s with ⟨a | _ | _, t, s'⟩ <;> rfl
    rw [hlift]
    refine safe_catchUnwind (safe_keeps (keeps_prints ?_) (fun r => ?_) ?_)
    · refine allEv_bind (allEv_ofOption _) fun r => ?_
      cases r with
      | ok e => exact allEv_pure _
      | error e => exact allEv_bind (writeError_prints _ _ _) fun _ => allEv_pure _
    · cases r with
      | error x => exact safe_pure rfl
      | ok env =>
        refine safe_bind (safe_catchUnwind ?_)
        unfold Core.makePlugin
        refine safe_ite (safe_pure (safe_pure rfl)) ?_
        refine safe_bind (safe_mono (safe_open rt _ (by omega) (held_ended st)) ?_ ?_)
        · rintro (e | p) l' rfl
          · refine safe_bind (safe_keeps (keeps_prints (writeError_prints _ _ _)) (fun _ => safe_pure (safe_pure rfl)) ?_)
            exact safe_pure rfl
          · refine safe_pure ?_
            cases hp : st.plugin with
            | none => exact safe_pure (by simp [held, hp])
            | some q =>
              refine safe_bind ?_
              unfold drop
              have : held ⟨some (st.env.getD env), st.plugin⟩ = held st := rfl
              cases hs : p.socket with
              | none => exact safe_pure (safe_pure (by simp [held, hs, hp]))
              | some fd =>
                have h1 : held ⟨none, some p⟩ ++ held st = .connected fd :: held st := by simp [held, hs]
                simp only [h1]
                exact safe_dropSocket (held_ended st fd) (safe_pure (by simp [held, hp]))
        · rintro l' rfl
          exact safe_pure rfl
    · exact safe_pure rfl
  | close =>
    show Safe 3 _ (do let st ← Core.close st; pure (0, st)) _ _
    unfold Core.close
    refine safe_bind ?_
    cases hp : st.plugin with
    | none => exact safe_pure (safe_pure (by simp [held, hp]))
    | some p =>
      refine safe_bind ?_
      unfold close
      cases hs : p.socket with
      | none => exact safe_pure (safe_pure (safe_pure (by simp [held, hp, hs])))
      | some fd =>
        have h1 : held st = [.connected fd] := by simp [held, hp, hs]
        rw [h1]
        refine safe_bind (safe_shutdown (by simp) ?_)
        unfold dropSocket
        refine safe_bind (safe_shutdown_again (safe_closing (after_closeStream fd) ?_))
        exact safe_pure (safe_pure rfl)
  | showVersion => exact keeps_step_log rt .showVersion st (by simp) (by simp)
  | log f b => exact keeps_step_log rt (.log f b) st (by simp) (by simp)
  | changeWinsize i j => exact keeps_step_log rt (.changeWinsize i j) st (by simp) (by simp)

theorem safe_run (rt : Rt) (cs : List SudoPair.Core.Call) (st : State) :
    Safe 3 (held st) (Core.run rt cs st) (fun r l => l = held r.2) (fun _ => False) := by
  induction cs generalizing st with
  | nil => exact safe_pure rfl
  | cons c cs ih =>
    unfold Core.run
    refine safe_bind (safe_mono (safe_step rt c st) ?_ (fun _ h => h))
    rintro ⟨r, st'⟩ l rfl
    refine safe_bind (safe_mono (ih st') ?_ (fun _ h => h))
    rintro ⟨rs, st''⟩ l rfl
    exact safe_pure rfl

end SudoPair.Handles

namespace SudoPair
open Handles

/-! ### The property -/

/-- C78: the rendering with the closing of descriptors does what the other one does: the same outcome, the same
interactions, the same rest of the schedule. -/
theorem C78_erase (rt : Rt) (cs : List Core.Call) (st : State) :
    H.erase (Handles.Core.run rt cs st) = Core.run rt cs st := forget_run rt cs st

/-- C78: whatever callbacks are made in whatever order and however the system behaves, every descriptor is used only
while it is open and in the right state, is closed once, a connection only after it was shut down, and at most three
are open at a time.  When a callback has returned, the only one left open is the connection of the stored session. -/
theorem C78_proper (rt : Rt) (cs : List Core.Call) (s : Sched) :
    (Handles.Core.run rt cs Core.init s).1 ≠ .panic ∧
    ∃ l, play 3 [] (Handles.Core.run rt cs Core.init s).2.1 = some l ∧
      ∀ rs st, (Handles.Core.run rt cs Core.init s).1 = .ok (rs, st) → l = held st := by
  have h := safe_run rt cs Core.init s
  rcases hm : Handles.Core.run rt cs Core.init s with ⟨a | _ | _, t, s'⟩ <;> rw [hm] at h <;> simp only at h ⊢
  · obtain ⟨l, h1, h2⟩ := h
    refine ⟨by simp, l, h1, ?_⟩
    intro rs st hst
    simp only [Out.ok.injEq] at hst
    subst hst
    exact h2
  · obtain ⟨l, _, h2⟩ := h
    exact h2.elim
  · obtain ⟨l, h1⟩ := h
    exact ⟨by simp, l, h1, by simp⟩

/-- C78: a descriptor left open between two callbacks is the connection on which a pair approved the session of an
`open` that returned 1 and was not followed by a `close`. -/
theorem C78_session (rt : Rt) (cs : List Core.Call) (s s' : Sched) (rs : List Int) (st : State) (t : List Step)
    (h : Handles.Core.run rt cs Core.init s = (.ok (rs, st), t, s')) :
    play 3 [] t = some [] ∨
    ∃ (fd i : Nat) (a : OpenArgs) (env : IoEnv) (h1 h2 h3 : Hist), play 3 [] t = some [.connected fd] ∧
      cs[i]? = some (.open a) ∧ rs[i]? = some 1 ∧ st.env = some env ∧
      (∀ j : Nat, i < j → cs[j]? ≠ some .close) ∧ Handles.sysOf t = h1 ++ h2 ++ h3 ∧ ApprovedSession env fd h2 := by
  obtain ⟨_, l, h1, h2⟩ := C78_proper rt cs s
  rw [h] at h1 h2
  simp only at h1 h2
  have h2 := h2 rs st rfl
  subst h2
  have hr : Runs (Core.run rt cs Core.init) (.ok (rs, st)) (Handles.sysOf t) := by
    refine ⟨s, ?_, ?_⟩ <;> rw [← C78_erase, H.erase_def, h]
  obtain ⟨tr, hx, rfl, rfl, hh⟩ := exec_of_run hr
  cases hp : st.plugin with
  | none => left; rw [h1]; simp [held, hp]
  | some p =>
    obtain ⟨env, a, hst, henv, ⟨tr1, tr2, rfl, ho⟩, _, hs⟩ := (session_inv hx).2 p hp
    rcases hs with ⟨rfl, _⟩ | ⟨fd, rfl, _, _, happ⟩
    · left; rw [h1]; simp [held, hp, Pair.ofEnv]
    · right
      refine ⟨fd, tr1.length, a, env, tr1.flatMap Item.hist, hst, tr2.flatMap Item.hist, ?_, ?_, ?_, henv, ?_, ?_, happ⟩
      · rw [h1]; simp [held, hp]
      · simp
      · simp
      · intro j hj hc
        rw [List.map_append, List.getElem?_append_right (by simp; omega)] at hc
        obtain ⟨k, hk⟩ : ∃ k, j - (tr1.map Item.call).length = k + 1 := ⟨j - tr1.length - 1, by simp; omega⟩
        rw [hk, List.map_cons, List.getElem?_cons_succ, List.getElem?_map] at hc
        cases hx2 : tr2[k]? with
        | none => rw [hx2] at hc; simp at hc
        | some x =>
          rw [hx2] at hc
          exact ho x (List.mem_of_getElem? hx2) (by simpa using hc)
      · rw [hh]; simp

/-- C78: after `close` nothing is open. -/
theorem C78_closed (rt : Rt) (cs : List Core.Call) (s s' : Sched) (x : List Int × State) (t : List Step)
    (h : Handles.Core.run rt (cs ++ [.close]) Core.init s = (.ok x, t, s')) : play 3 [] t = some [] := by
  rcases C78_session rt _ s s' x.1 x.2 t h with h | ⟨fd, i, a, env, h1, h2, h3, _, hi, _, _, hc, _⟩
  · exact h
  · have hl : i < cs.length := Classical.byContradiction fun hn => by
      rw [List.getElem?_append_right (by omega)] at hi
      rcases hk : i - cs.length with _ | k <;> rw [hk] at hi <;> simp at hi
    exact absurd (by simp) (hc cs.length hl)

/-- C78: after an `open` that did not return 1 nothing is open. -/
theorem C78_refused (rt : Rt) (a : OpenArgs) (s s' : Sched) (r : Int) (st : State) (t : List Step) (hr : r ≠ 1)
    (h : Handles.Core.run rt [.open a] Core.init s = (.ok ([r], st), t, s')) : play 3 [] t = some [] := by
  rcases C78_session rt _ s s' [r] st t h with h | ⟨fd, i, a, env, h1, h2, h3, _, hi, hri, _⟩
  · exact h
  · rcases i with _ | i
    · simp at hri; exact absurd hri hr
    · simp at hri

/-- What is left open by a run, for the examples. -/
def leftOpen (limit : Nat) (cs : List Core.Call) (s : Sched) : Option (List Handle) :=
  play limit [] (Handles.Core.run sampleRt cs Core.init s).2.1

/-- An approved session holds its connection, which `close` gives back; a refused one holds nothing. -/
example :
    leftOpen 3 [.open sampleArgs] (List.replicate 99 (coop 121)) = some [.connected 8] ∧
    leftOpen 3 [.open sampleArgs, .log .stdout (b! "x"), .close] (List.replicate 99 (coop 121)) = some [] ∧
    leftOpen 3 [.open sampleArgs] (List.replicate 99 (coop 110)) = some [] := by decide +kernel

/-- A second `open` during a session needs three descriptors at once, a first one needs two. -/
example :
    leftOpen 2 [.open sampleArgs, .open sampleArgs] (List.replicate 99 (coop 121)) = none ∧
    leftOpen 2 [.open sampleArgs] (List.replicate 99 (coop 121)) = some [.connected 8] ∧
    leftOpen 1 [.open sampleArgs] (List.replicate 99 (coop 121)) = none := by decide +kernel

/-- A process killed while the pair is being asked has the connection open, one killed at `accept` the listener. -/
example :
    leftOpen 3 [.open sampleArgs] (List.replicate 16 (coop 121)) = some [.connected 8] ∧
    leftOpen 3 [.open sampleArgs] (List.replicate 10 (coop 121)) = some [.listening 7] := by decide +kernel

/-- Traces that are not proper: use after shutting down, closing twice, closing without shutting down, use of what was
never opened. -/
example :
    play 3 [.connected 8] [.sys ⟨.shutdown 8, true⟩, .sys ⟨.sockWrite 8 [1], .wrote 1⟩] = none ∧
    play 3 [.connected 8] [.sys ⟨.shutdown 8, true⟩, .closeStream 8, .closeStream 8] = none ∧
    play 3 [.connected 8] [.closeStream 8] = none ∧
    play 3 [] [.sys ⟨.select 7, ((1, true) : Int × Bool)⟩] = none ∧
    play 3 [.connected 8] [.sys ⟨.shutdown 8, true⟩, .closeStream 8] = some [] := by decide

end SudoPair
