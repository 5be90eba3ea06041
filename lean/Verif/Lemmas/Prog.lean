import Mathlib.Data.List.Forall2
import Verif.Lemmas.Piecewise
/-
The structure of the effectful code: everything is put together from single interactions by sequencing,
`catch_unwind`, drop glue and `write_all`.  Facts about schedules follow by induction on this structure.
-/
namespace SudoPair

/-- The writer interacts with the system whenever it reports progress or an interruption. -/
def Lively (w : Bytes → M WriteRes) : Prop :=
  ∀ buf s, (w buf s).2.1 = [] → (∀ n, (w buf s).1 ≠ .ok (.wrote (n + 1))) ∧ (w buf s).1 ≠ .ok .intr

/-- Code put together from single interactions. -/
inductive Prog : {α : Type} → M α → Prop
  | pure {α : Type} (a : α) : Prog (pure a : M α)
  | panic {α : Type} : Prog (M.panic : M α)
  | sys (c : Sys) : Prog (M.sys c)
  | bind {α β : Type} {m : M α} {f : α → M β} : Prog m → (∀ a, Prog (f a)) → Prog (m >>= f)
  | catchUnwind {α : Type} {m : M α} : Prog m → Prog (M.catchUnwind m)
  | onUnwind {α : Type} {m : M α} {c : M Unit} : Prog m → Prog c → Prog (M.onUnwind m c)
  | writeAll {w : Bytes → M WriteRes} (buf : Bytes) : (∀ b, Prog (w b)) → Lively w → Prog (writeAll w buf)

theorem prog_ite {α : Type} {c : Prop} [Decidable c] {m n : M α} (hm : Prog m) (hn : Prog n) :
    Prog (if c then m else n) := by split <;> assumption

theorem prog_ofOption {α : Type} (x : Option α) : Prog (M.ofOption x) := by
  cases x
  · exact .panic
  · exact .pure _

/-! ### Every part of the plugin is such code -/

theorem prog_ctrlCAborts {α : Type} {m : M α} (hm : Prog m) : Prog (ctrlCAborts m) := by
  refine .bind (.sys _) ?_
  rintro (_ | old)
  · exact .pure _
  · exact .bind (.sys _) fun _ => prog_ite (.bind hm fun _ => .bind (.sys _) fun _ => prog_ite (.pure _) (.pure _))
      (.pure _)

theorem prog_read (fd len : Nat) : Prog (Socket.read fd len) := by
  refine .bind (prog_ctrlCAborts (.sys _)) ?_
  rintro (_ | _) <;> exact .pure _

theorem prog_write (fd : Nat) (buf : Bytes) : Prog (Socket.write fd buf) := by
  refine .bind (prog_ctrlCAborts (.sys _)) ?_
  rintro (_ | _) <;> exact .pure _

theorem lively_write (fd : Nat) : Lively (Socket.write fd) := by
  intro buf s h
  obtain ⟨o', hg, ho⟩ := write_runs (o := (Socket.write fd buf s).1) (h := (Socket.write fd buf s).2.1) ⟨s, rfl, rfl⟩
  rw [h] at hg
  generalize hh : ([] : Hist) = h0 at hg
  cases hg <;> simp at hh
  rcases ho with ⟨_, ho⟩ | ⟨ho, _⟩ | ⟨_, ho, _⟩
  · exact ⟨fun n h => (by rw [ho] at h; cases h), fun h => (by rw [ho] at h; cases h)⟩
  · cases ho
  · cases ho

theorem prog_socketWriteAll (fd : Nat) (buf : Bytes) : Prog (Socket.writeAll fd buf) :=
  .writeAll _ (prog_write fd) (lively_write fd)

theorem prog_flush : Prog Socket.flush := by
  refine .bind (prog_ctrlCAborts (.pure _)) ?_
  rintro (_ | _) <;> exact .pure _

theorem prog_socketClose (fd : Nat) : Prog (Socket.close fd) := .bind (.sys _) fun _ => .pure _

theorem lively_tty : Lively (fun b => M.sys (.ttyWrite b)) := by
  intro buf s h
  cases s with
  | nil => simp [M.sys]
  | cons a s => simp [M.sys] at h

theorem lively_print (pf : PrintFacility) : Lively pf.write := by
  intro buf s h
  unfold PrintFacility.write at h ⊢
  split
  · exact ⟨fun n h => by simp [pure, M.pure] at h, fun h => by simp [pure, M.pure] at h⟩
  · split
    · exact ⟨fun n h => by simp [pure, M.pure] at h, fun h => by simp [pure, M.pure] at h⟩
    · rename_i h1 h2
      rw [if_neg h1, if_neg h2] at h
      cases s with
      | nil => simp [M.sys]
      | cons a s => simp [M.sys] at h

theorem prog_printWriteAll (pf : PrintFacility) (buf : Bytes) : Prog (pf.writeAll buf) :=
  .writeAll _ (fun _ => prog_ite (.pure _) (prog_ite (.pure _) (.sys _))) (lively_print pf)

theorem prog_writeLine (pf : PrintFacility) (l : Bytes) : Prog (pf.writeLine l) :=
  .bind (prog_printWriteAll _ _) fun _ => prog_ite
    (.bind (prog_printWriteAll _ _) fun _ => prog_ite (prog_printWriteAll _ _) (.pure _)) (.pure _)

theorem prog_writeError (pf : PrintFacility) (m : Bytes) : Prog (pf.writeError m none) :=
  show Prog (do
    if ← pf.writeAll (b! "\n") then
      if ← pf.writeLine m then pure true else pure false
    else pure false) from
  .bind (prog_printWriteAll _ _) fun _ => prog_ite
    (.bind (prog_writeLine _ _) fun _ => prog_ite (.pure _) (.pure _)) (.pure _)

theorem prog_writePieces (pf : PrintFacility) : ∀ l, Prog (Core.writePieces pf l)
  | [] => .pure _
  | _ :: l => .bind (prog_printWriteAll _ _) fun _ => prog_ite (prog_writePieces pf l) (.pure _)

theorem prog_unlink (path : Bytes) : Prog (Socket.unlink path) := by
  refine .bind (.sys _) ?_
  rintro (_ | _ | _)
  · exact .pure _
  · exact .pure _
  · exact .sys _

theorem prog_open' (rt : Rt) (path : Bytes) (uid gid mode : Nat) :
    Prog (Socket.open' rt path uid gid mode) := by
  have fin : ∀ old (x : Option Conn), Prog (do
      let _ ← Socket.unlink path
      let _ ← M.sys (.umask old)
      pure x) := fun old x => .bind (prog_unlink _) fun _ => .bind (.sys _) fun _ => .pure _
  refine .bind ?_ fun _ => prog_ite (.bind (prog_unlink _) fun _ => prog_ite
    (.bind (.sys _) fun old => .bind (.sys _) fun r => ?_) (.pure _)) (.pure _)
  · unfold Socket.enforceOwnership
    split
    · exact .pure _
    · refine prog_ite (.pure _) (.bind (.sys _) ?_)
      rintro (_ | st)
      · exact .pure _
      · exact prog_ite (.pure _) (prog_ite (.pure _) (prog_ite (.pure _) (.pure _)))
  · rcases r with fd | _ | _
    · refine .bind ?_ fun x => fin old x
      refine prog_ite (.pure _) (.bind (.sys _) fun _ => prog_ite
        (.bind (.sys _) fun _ => prog_ite (prog_ite .panic
          (.bind (.sys _) fun r => ?_)) (.pure _)) (.pure _))
      rcases r with ⟨n, b⟩
      split
      · exact .sys _
      · exact .panic
      · exact .pure _
      · exact .panic
    · exact .bind (.pure _) fun x => fin old x
    · exact .bind (.pure _) fun x => fin old x

theorem prog_ttyPrompt (p : Pair) (prompt : Bytes) : Prog (p.ttyPrompt prompt) := by
  unfold Pair.ttyPrompt
  split
  · exact .pure _
  · exact .bind (.sys _) fun _ => prog_ite (.writeAll _ (fun _ => .sys _) lively_tty) (.pure _)

theorem prog_localPairPrompt (p : Pair) (spec : TemplateSpec) : Prog (p.localPairPrompt spec) :=
  .bind (.sys _) fun _ => .bind (prog_ttyPrompt _ _) fun _ => prog_ite (.pure _)
    (.bind (prog_printWriteAll _ _) fun _ => .pure _)

theorem prog_remotePairPrompt (p : Pair) (spec : TemplateSpec) (fd : Nat) :
    Prog (p.remotePairPrompt spec fd) := by
  refine .bind (.sys _) fun _ => .bind (prog_socketWriteAll _ _) fun _ =>
    prog_ite (.bind prog_flush fun _ => prog_ite (.bind (prog_read _ _) fun r => ?_) (.pure _)) (.pure _)
  split
  · exact .pure _
  · exact .bind (prog_socketWriteAll _ _) fun _ => .bind (prog_socketWriteAll _ _) fun _ =>
      prog_ite (.pure _) (.pure _)

theorem prog_remotePairConnect (rt : Rt) (p : Pair) : Prog (p.remotePairConnect rt) := by
  refine .bind (prog_ofOption _) fun mode => .bind (prog_open' _ _ _ _ _) fun c => ?_
  rcases c with _ | c <;> exact .pure _

theorem prog_pairOpen (rt : Rt) (env : IoEnv) : Prog (Pair.open rt env) := by
  refine .bind (prog_ofOption _) fun _ => prog_ite (.pure _) (prog_ite (.pure _)
    (.bind (prog_localPairPrompt _ _) fun _ => .bind (prog_remotePairConnect _ _) fun r => ?_))
  rcases r with e | fd
  · exact .pure _
  · refine .onUnwind (.bind (prog_remotePairPrompt _ _ _) fun r => ?_) (prog_socketClose _)
    rcases r with e | ⟨⟨⟩⟩
    · exact .bind (prog_socketClose _) fun _ => .pure _
    · exact .pure _

theorem prog_coreOpen (rt : Rt) (a : OpenArgs) (st : State) : Prog (Core.open rt a st) := by
  refine .bind (.catchUnwind (.bind (prog_ofOption _) fun r => ?_)) fun r => ?_
  · rcases r with e | env
    · exact .bind (prog_writeError _ _) fun _ => .pure _
    · exact .pure _
  · rcases r with _ | e | env
    · exact .pure _
    · exact .pure _
    · refine .bind (.catchUnwind (prog_ite (.pure _) (.bind (prog_pairOpen _ _) fun r => ?_))) fun r => ?_
      · rcases r with e | env
        · exact .bind (prog_writeError _ _) fun _ => .pure _
        · exact .pure _
      · rcases r with _ | e | p
        · exact .pure _
        · exact .pure _
        · dsimp only
          cases st.plugin with
          | none => exact .pure _
          | some q =>
            refine .bind ?_ fun _ => .pure _
            unfold Pair.drop
            split
            · exact .pure _
            · exact prog_socketClose _

theorem prog_logOutput (p : Pair) (buf : Bytes) : Prog (p.logOutput buf) := by
  unfold Pair.logOutput
  split
  · exact .pure _
  · exact .bind (prog_socketWriteAll _ _) fun b => prog_ite (.pure _) (.pure _)

theorem prog_finish (env : IoEnv) (r : Except ErrorKind Unit) : Prog (Core.finish env r) := by
  rcases r with e | ⟨⟨⟩⟩
  · exact .bind (prog_writeError _ _) fun _ => .pure _
  · exact .pure _

theorem prog_step (rt : Rt) (c : Core.Call) (st : State) : Prog (Core.step rt c st) := by
  cases c with
  | «open» a => exact prog_coreOpen rt a st
  | close =>
    refine .bind ?_ fun _ => .pure _
    unfold Core.close
    cases st.plugin with
    | none => exact .bind (.pure _) fun _ => .pure _
    | some p =>
      refine .bind ?_ fun _ => .pure _
      unfold Pair.close
      split
      · exact .pure _
      · exact .bind (prog_socketClose _) fun _ => prog_socketClose _
  | showVersion =>
    refine .bind (.bind (.catchUnwind ?_) ?_) fun _ => .pure _
    · exact .bind (prog_ofOption _) fun env => .bind (prog_writePieces _ _) fun _ => .pure _
    · rintro (_ | ⟨⟨⟩⟩) <;> exact .pure _
  | log f buf =>
    refine .bind (.bind (.catchUnwind ?_) fun _ => .pure _) fun _ => .pure _
    refine .bind (prog_ofOption _) fun env => .bind (prog_ofOption _) fun p =>
      prog_ite (.pure _) (.bind ?_ fun _ => prog_finish _ _)
    cases f
    · exact .pure _
    · exact prog_logOutput _ _
    · exact .bind (prog_ofOption _) fun _ => prog_ite (.pure _) (.pure _)
    · exact prog_logOutput _ _
    · exact prog_logOutput _ _
  | changeWinsize l c =>
    refine .bind (.bind (.catchUnwind ?_) fun _ => .pure _) fun _ => .pure _
    exact .bind (prog_ofOption _) fun env => .bind (prog_ofOption _) fun p =>
      .bind (prog_logOutput _ _) fun _ => prog_finish _ _

theorem prog_run (rt : Rt) : ∀ cs st, Prog (Core.run rt cs st)
  | [], _ => .pure _
  | c :: cs, st => .bind (prog_step rt c st) fun _ => .bind (prog_run rt cs _) fun _ => .pure _

/-! ### Runs and schedules -/

/-- The events of `h` carry the answers `used`. -/
def Answered (used : Sched) (h : Hist) : Prop := List.Forall₂ (fun (a : Answer) (e : Ev) => e.resp = a e.call) used h

/-- A run uses up a beginning of the schedule, one answer per event, and it is cut short only when the
schedule is exhausted. -/
structure Faithful {α : Type} (m : M α) (s : Sched) : Prop where
  used : ∃ used, s = used ++ (m s).2.2 ∧ Answered used (m s).2.1
  killed : (m s).1 = .killed → (m s).2.2 = []

/-- A run that was not cut short does not depend on what follows in the schedule. -/
def Stable {α : Type} (m : M α) (s : Sched) : Prop :=
  (m s).1 ≠ .killed → ∀ s', m (s ++ s') = ((m s).1, (m s).2.1, (m s).2.2 ++ s')

theorem Faithful.length {α : Type} {m : M α} {s : Sched} (h : Faithful m s) :
    s.length = (m s).2.1.length + (m s).2.2.length := by
  obtain ⟨used, h1, h2⟩ := h.used
  have := congrArg List.length h1
  simp only [List.length_append] at this
  rw [this, List.Forall₂.length_eq h2]

theorem answered_append {u v : Sched} {h k : Hist} (h1 : Answered u h) (h2 : Answered v k) :
    Answered (u ++ v) (h ++ k) := List.rel_append h1 h2

theorem faithful_bind {α β : Type} {m : M α} {f : α → M β} {s : Sched} (hm : Faithful m s)
    (hf : ∀ a s', Faithful (f a) s') : Faithful (m >>= f) s := by
  obtain ⟨⟨u, h1, h2⟩, h3⟩ := hm
  constructor
  · rw [M.bind_def]
    rcases hms : m s with ⟨a | _ | _, h, s'⟩ <;> rw [hms] at h1 h2
    · obtain ⟨⟨v, k1, k2⟩, k3⟩ := hf a s'
      refine ⟨u ++ v, ?_, answered_append h2 k2⟩
      rw [List.append_assoc, ← k1]
      exact h1
    · exact ⟨u, h1, h2⟩
    · exact ⟨u, h1, h2⟩
  · rw [M.bind_def]
    rcases hms : m s with ⟨a | _ | _, h, s'⟩ <;> rw [hms] at h3
    · exact (hf a s').killed
    · intro h; simp at h
    · exact fun _ => h3 rfl

theorem faithful_writeAllFuel {w : Bytes → M WriteRes} (hw : ∀ b s, Faithful (w b) s) (hl : Lively w) :
    ∀ fuel buf s, s.length < fuel → Faithful (writeAllFuel w fuel buf) s := by
  intro fuel
  induction fuel with
  | zero => intro buf s h; omega
  | succ fuel ih =>
    intro buf s hs
    cases buf with
    | nil => exact ⟨⟨[], rfl, .nil⟩, fun h => by simp [writeAllFuel, pure, M.pure] at h⟩
    | cons b bs =>
      have hf := hw (b :: bs) s
      have hlen := hf.length
      have hlv := hl (b :: bs) s
      obtain ⟨⟨u, h1, h2⟩, h3⟩ := hf
      have key : ∀ (r : WriteRes) h s', w (b :: bs) s = (.ok r, h, s') →
          Faithful (writeRound (writeAllFuel w fuel) (b :: bs) r) s' := by
        intro r h s' hws
        rw [hws] at hlen hlv
        have hlt : ∀ {n}, r = .wrote (n + 1) ∨ r = .intr → s'.length < fuel := by
          intro n hr
          have : h ≠ [] := by
            rintro rfl
            obtain ⟨k1, k2⟩ := hlv rfl
            rcases hr with rfl | rfl
            · exact k1 n rfl
            · exact k2 rfl
          have := List.length_pos_iff.2 this
          simp only at hlen
          omega
        have done : ∀ {o : Out Bool}, o ≠ .killed → ∀ s'' : Sched, Faithful (fun s => (o, [], s)) s'' :=
          fun ho s'' => ⟨⟨[], rfl, .nil⟩, fun h => absurd h ho⟩
        rcases r with (_ | n) | _ | _
        · exact done (by simp) s'
        · simp only [writeRound]
          split
          · exact ih _ _ (hlt (Or.inl rfl))
          · exact done (by simp) s'
        · exact ih _ _ (hlt (n := 0) (Or.inr rfl))
        · exact done (by simp) s'
      unfold writeAllFuel
      constructor
      · rw [M.bind_def]
        rcases hms : w (b :: bs) s with ⟨a | _ | _, h, s'⟩ <;> rw [hms] at h1 h2
        · obtain ⟨⟨v, k1, k2⟩, k3⟩ := key a h s' hms
          refine ⟨u ++ v, ?_, answered_append h2 k2⟩
          rw [List.append_assoc, ← k1]
          exact h1
        · exact ⟨u, h1, h2⟩
        · exact ⟨u, h1, h2⟩
      · rw [M.bind_def]
        rcases hms : w (b :: bs) s with ⟨a | _ | _, h, s'⟩ <;> rw [hms] at h3
        · exact (key a h s' hms).killed
        · intro h; simp at h
        · exact fun _ => h3 rfl

theorem faithful_onUnwind {α : Type} {m : M α} {c : M Unit} {s : Sched} (hm : Faithful m s)
    (hc : ∀ s', Faithful c s') : Faithful (M.onUnwind m c) s := by
  obtain ⟨⟨u, h1, h2⟩, h3⟩ := hm
  unfold M.onUnwind
  rcases hms : m s with ⟨a | _ | _, h, s'⟩ <;> rw [hms] at h1 h2 h3
  · exact ⟨⟨u, by rw [hms]; exact h1, by rw [hms]; exact h2⟩, fun h => by rw [hms] at h; simp at h⟩
  · obtain ⟨⟨v, k1, k2⟩, k3⟩ := hc s'
    have e1 : s = (u ++ v) ++ (c s').2.2 := by rw [List.append_assoc, ← k1]; exact h1
    have e2 : Answered (u ++ v) (h ++ (c s').2.1) := answered_append h2 k2
    rcases hcs : c s' with ⟨a | _ | _, h', s''⟩ <;> rw [hcs] at e1 e2 k3 <;>
      refine ⟨⟨u ++ v, ?_, ?_⟩, ?_⟩ <;> rw [hms] <;> simp only [hcs]
    · exact e1
    · exact e2
    · intro h; simp at h
    · exact e1
    · exact e2
    · intro h; simp at h
    · exact e1
    · exact e2
    · exact fun _ => k3 rfl
  · refine ⟨⟨u, by rw [hms]; exact h1, by rw [hms]; exact h2⟩, fun h => by rw [hms]; exact h3 rfl⟩

theorem Prog.faithful {α : Type} {m : M α} (hm : Prog m) : ∀ s, Faithful m s := by
  induction hm with
  | pure a => exact fun s => ⟨⟨[], rfl, .nil⟩, fun h => by cases h⟩
  | panic => exact fun s => ⟨⟨[], rfl, .nil⟩, fun h => by cases h⟩
  | sys c =>
    intro s
    cases s with
    | nil => exact ⟨⟨[], rfl, .nil⟩, fun _ => rfl⟩
    | cons a s => exact ⟨⟨[a], rfl, .cons rfl .nil⟩, fun h => by cases h⟩
  | bind _ _ ih1 ih2 => exact fun s => faithful_bind (ih1 s) ih2
  | @catchUnwind α m _ ih =>
    intro s
    obtain ⟨⟨u, h1, h2⟩, h3⟩ := ih s
    unfold M.catchUnwind
    rcases hms : m s with ⟨a | _ | _, h, s'⟩ <;> rw [hms] at h1 h2 h3 <;>
      refine ⟨⟨u, by rw [hms]; exact h1, by rw [hms]; exact h2⟩, fun h => ?_⟩ <;> rw [hms] at h ⊢
    · simp at h
    · simp at h
    · exact h3 rfl
  | onUnwind _ _ ih1 ih2 => exact fun s => faithful_onUnwind (ih1 s) ih2
  | writeAll buf _ hl ih => 
    intro s
    have := faithful_writeAllFuel ih hl (s.length + 1) buf s (by omega)
    exact ⟨this.used, this.killed⟩

theorem consumes_of {w : Bytes → M WriteRes} (hw : ∀ b s, Faithful (w b) s) (hl : Lively w) : Consumes w := by
  intro buf s
  have h1 := (hw buf s).length
  have h2 := hl buf s
  have pos : (w buf s).2.1 ≠ [] → (w buf s).2.2.length < s.length := fun h => by
    have := List.length_pos_iff.2 h
    omega
  refine ⟨by omega, fun n hn => pos fun h => (h2 h).1 n hn, fun hn => pos fun h => (h2 h).2 hn⟩

/-- The model's `write_all` satisfies the loop equation of the standard library wherever it is used. -/
theorem Prog.writeAll_eq {w : Bytes → M WriteRes} (hw : ∀ b, Prog (w b)) (hl : Lively w) (b : UInt8) (bs : Bytes) :
    SudoPair.writeAll w (b :: bs) = (do
      let r ← w (b :: bs)
      writeRound (SudoPair.writeAll w) (b :: bs) r) :=
  SudoPair.writeAll_eq (consumes_of (fun b => (hw b).faithful) hl) b bs

theorem stable_bind {α β : Type} {m : M α} {f : α → M β} {s : Sched} (hm : Stable m s)
    (hf : ∀ a s', Stable (f a) s') : Stable (m >>= f) s := by
  intro hk s'
  rw [M.bind_def] at hk ⊢
  rw [M.bind_def]
  rcases hms : m s with ⟨a | _ | _, h, s1⟩
  · rw [hm (by rw [hms]; simp) s', hms]
    rw [hms] at hk
    simp only at hk ⊢
    rw [hf a s1 hk s']
  · rw [hm (by rw [hms]; simp) s', hms]
  · rw [hms] at hk; simp at hk

theorem stable_onUnwind {α : Type} {m : M α} {c : M Unit} {s : Sched} (hm : Stable m s)
    (hc : ∀ s', Stable c s') : Stable (M.onUnwind m c) s := by
  intro hk s'
  unfold M.onUnwind at hk ⊢
  rcases hms : m s with ⟨a | _ | _, h, s1⟩
  · rw [hm (by rw [hms]; simp) s', hms]
  · rw [hm (by rw [hms]; simp) s', hms]
    rw [hms] at hk
    simp only at hk ⊢
    rcases hcs : c s1 with ⟨a | _ | _, h', s2⟩
    · rw [hc s1 (by rw [hcs]; simp) s', hcs]
    · rw [hc s1 (by rw [hcs]; simp) s', hcs]
    · rw [hcs] at hk; simp at hk
  · rw [hms] at hk; simp at hk

theorem stable_writeAllFuel {w : Bytes → M WriteRes} (hw : ∀ b s, Stable (w b) s) :
    ∀ fuel buf s, Stable (writeAllFuel w fuel buf) s := by
  intro fuel
  induction fuel with
  | zero =>
    intro buf s
    cases buf with
    | nil => exact fun _ _ => rfl
    | cons b bs => intro h; simp [writeAllFuel, M.killed] at h
  | succ fuel ih =>
    intro buf s
    cases buf with
    | nil => exact fun _ _ => rfl
    | cons b bs =>
      unfold writeAllFuel
      refine stable_bind (hw _ s) ?_
      rintro ((_ | n) | _ | _) s'
      · exact fun _ _ => rfl
      · simp only [writeRound]
        split
        · exact ih _ _
        · exact fun _ _ => rfl
      · exact ih _ _
      · exact fun _ _ => rfl

theorem Prog.stable {α : Type} {m : M α} (hm : Prog m) : ∀ s, Stable m s := by
  induction hm with
  | pure a => exact fun _ _ _ => rfl
  | panic => exact fun _ _ _ => rfl
  | sys c =>
    intro s
    cases s with
    | nil => intro h; simp [M.sys] at h
    | cons a s => exact fun _ _ => rfl
  | bind _ _ ih1 ih2 => exact fun s => stable_bind (ih1 s) ih2
  | @catchUnwind α m _ ih =>
    intro s hk s'
    unfold M.catchUnwind at hk ⊢
    rcases hms : m s with ⟨a | _ | _, h, s1⟩
    · rw [ih s (by rw [hms]; simp) s', hms]
    · rw [ih s (by rw [hms]; simp) s', hms]
    · rw [hms] at hk; simp at hk
  | onUnwind _ _ ih1 ih2 => exact fun s => stable_onUnwind (ih1 s) ih2
  | @writeAll w buf hp hl ih =>
    intro s hk s'
    have he : SudoPair.writeAll w buf s = writeAllFuel w ((s ++ s').length + 1) buf s :=
      writeAllFuel_stable (consumes_of (fun b => (hp b).faithful) hl) (s.length + 1)
        ((s ++ s').length + 1) buf s (by omega) (by simp only [List.length_append]; omega)
    rw [he] at hk ⊢
    exact stable_writeAllFuel ih _ buf s hk s'

end SudoPair
