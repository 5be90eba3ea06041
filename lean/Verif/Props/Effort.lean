import Verif.Lemmas.Prog
import Verif.Props.Print
import Verif.Spec.Effort
/-
C55: every callback ends, after a number of interactions bounded in terms of its inputs; C41.
-/
namespace SudoPair
open Spec

/-- Sum of the weights of the events. -/
def weigh (w : Ev → Nat) (h : Hist) : Nat := (h.map w).sum

theorem weigh_append (w : Ev → Nat) (a b : Hist) : weigh w (a ++ b) = weigh w a + weigh w b := by
  simp [weigh]

/-- Runs of `m` perform at most `n` interactions, plus the weight of the events. -/
def Bounded {α : Type} (w : Ev → Nat) (m : M α) (n : Nat) : Prop := wp m fun _ h => h.length ≤ n + weigh w h

section
variable {α β : Type} {w : Ev → Nat}

theorem bounded_mono {m : M α} {n k : Nat} (h : Bounded w m n) (hk : n ≤ k) : Bounded w m k :=
  wp_mono h fun _ _ h => by omega

theorem bounded_pure (a : α) (n : Nat) : Bounded w (pure a) n := wp_pure (by simp)

theorem bounded_panic (n : Nat) : Bounded w (M.panic : M α) n := wp_panic (by simp)

theorem bounded_ofOption (x : Option α) (n : Nat) : Bounded w (M.ofOption x) n := by
  cases x
  · exact bounded_panic _
  · exact bounded_pure _ _

theorem bounded_sys (c : Sys) : Bounded w (M.sys c) 1 := wp_sys (by simp) (by simp)

theorem bounded_bind {m : M α} {f : α → M β} {n k : Nat} (hm : Bounded w m n) (hf : ∀ a, Bounded w (f a) k) :
    Bounded w (m >>= f) (n + k) := by
  refine wp_bind (wp_mono hm ?_)
  rintro (a | _ | _) h hh
  · show wp (f a) (fun _ h' => (h ++ h').length ≤ n + k + weigh w (h ++ h'))
    refine wp_mono (hf a) fun o h' hh' => ?_
    rw [weigh_append, List.length_append]
    omega
  · show h.length ≤ _; omega
  · show h.length ≤ _; omega

/-- The interaction itself pays for what follows. -/
theorem bounded_sys_bind {c : Sys} {f : Resp c → M β} {n : Nat} (hf : ∀ r, Bounded w (f r) (n + w ⟨c, r⟩)) :
    Bounded w (M.sys c >>= f) (1 + n) := by
  refine wp_sys_bind (by simp) fun r => wp_mono (hf r) fun o h hh => ?_
  have : weigh w (⟨c, r⟩ :: h) = w ⟨c, r⟩ + weigh w h := by simp [weigh]
  rw [this, List.length_cons]
  omega

theorem bounded_ite {c : Prop} [Decidable c] {m m' : M α} {n : Nat} (hm : Bounded w m n) (hn : Bounded w m' n) :
    Bounded w (if c then m else m') n := wp_ite (fun _ => hm) (fun _ => hn)

theorem bounded_catchUnwind {m : M α} {n : Nat} (hm : Bounded w m n) : Bounded w (M.catchUnwind m) n := by
  refine wp_catchUnwind (wp_mono hm ?_)
  rintro (a | _ | _) h hh <;> exact hh

theorem bounded_onUnwind {m : M α} {c : M Unit} {n k : Nat} (hm : Bounded w m n) (hc : Bounded w c k) :
    Bounded w (M.onUnwind m c) (n + k) := by
  refine wp_onUnwind (wp_mono hm ?_)
  rintro (a | _ | _) h hh
  · show h.length ≤ _; omega
  · unfold unwindPost
    refine wp_mono hc ?_
    rintro (a | _ | _) h' hh' <;> (simp only [List.length_append, weigh_append]; omega)
  · show h.length ≤ _; omega

/-- A writer that takes at most `k` interactions, interruptions being paid for, makes `write_all` take at
most `k` per byte. -/
theorem bounded_writeAll {wr : Bytes → M WriteRes} {k : Nat}
    (hw : ∀ b, wp (wr b) fun o h => h.length ≤ k ∧ (o = .ok .intr → k ≤ weigh w h)) (buf : Bytes) :
    Bounded w (writeAll wr buf) (k * buf.length) := by
  refine wp_writeAll (P := fun buf o h => h.length ≤ k * buf.length + weigh w h) (by simp) (by simp) ?_ buf
  intro buf hne
  have hpos : 1 ≤ buf.length := List.length_pos_iff.2 hne
  have hk : k ≤ k * buf.length := Nat.le_mul_of_pos_right k hpos
  refine wp_mono (hw buf) ?_
  rintro (((_ | n) | _ | _) | _ | _) h ⟨h1, h2⟩
  · show h.length ≤ _; omega
  · refine ⟨fun hn o h' hp => ?_, fun _ => (by show h.length ≤ k * buf.length + weigh w h; omega)⟩
    show (h ++ h').length ≤ k * buf.length + weigh w (h ++ h')
    have hp : h'.length ≤ k * (buf.drop (n + 1)).length + weigh w h' := hp
    rw [List.length_append, weigh_append]
    rw [List.length_drop] at hp
    have : k * (buf.length - (n + 1)) + k ≤ k * buf.length := by
      rw [← Nat.mul_succ]
      exact Nat.mul_le_mul_left k (by omega)
    omega
  · intro o h' hp
    have := h2 rfl
    show (h ++ h').length ≤ k * buf.length + weigh w (h ++ h')
    have hp : h'.length ≤ k * buf.length + weigh w h' := hp
    rw [List.length_append, weigh_append]
    omega
  · show h.length ≤ _; omega
  · show h.length ≤ _; omega
  · show h.length ≤ _; omega

variable (hr : ∀ e, retried e = true → 4 ≤ w e)
include hr

theorem bounded_socketWriteAll (fd : Nat) (buf : Bytes) : Bounded w (Socket.writeAll fd buf) (4 * buf.length) := by
  refine bounded_writeAll (fun b => wp_iff_runs.2 ?_) buf
  intro o h hrun
  obtain ⟨o', hg, ho⟩ := write_runs hrun
  refine ⟨by cases hg <;> simp, fun hi => ?_⟩
  rw [hi] at ho
  rcases ho with ⟨_, ho⟩ | ⟨_, ho⟩ | ⟨r, rfl, ho⟩
  · cases ho
  · cases ho
  · simp only [Out.ok.injEq] at ho
    subst ho
    have := hr ⟨.sockWrite fd b, .intr⟩ rfl
    generalize hx : (Out.ok (some WriteRes.intr) : Out (Option (Resp (.sockWrite fd b)))) = x at hg
    cases hg <;> simp at hx
    subst hx
    simp only [weigh, List.map_cons, List.map_nil, List.sum_cons, List.sum_nil]
    omega

theorem bounded_printWriteAll (pf : PrintFacility) (buf : Bytes) : Bounded w (pf.writeAll buf) buf.length := by
  refine bounded_mono (bounded_writeAll (k := 1) (fun b => ?_) buf) (by omega)
  unfold PrintFacility.write
  refine wp_ite (fun _ => wp_pure (by simp)) fun _ => wp_ite (fun _ => wp_pure (by simp)) fun _ => wp_sys (by simp) ?_
  intro r
  refine ⟨by simp, fun hi => ?_⟩
  simp only [Out.ok.injEq] at hi
  have := hr ⟨.printf pf.level b, r⟩ (by subst hi; rfl)
  simp only [weigh, List.map_cons, List.map_nil, List.sum_cons, List.sum_nil]
  omega

theorem bounded_writeLine (pf : PrintFacility) (l : Bytes) :
    Bounded w (pf.writeLine l) (pf.tag.length + (l.length + 1)) :=
  bounded_bind (bounded_printWriteAll hr _ _) fun _ => bounded_ite
    (bounded_bind (bounded_printWriteAll hr _ _) fun _ => bounded_ite (bounded_printWriteAll hr _ _) (bounded_pure _ _))
    (bounded_pure _ _)

theorem bounded_writeError (pf : PrintFacility) (m : Bytes) :
    Bounded w (pf.writeError m none) (1 + (pf.tag.length + (m.length + 1) + 0)) := by
  rw [writeError_none]
  exact bounded_bind (bounded_printWriteAll hr _ _) fun _ => bounded_ite
    (bounded_bind (bounded_writeLine hr _ _) fun _ => bounded_ite (bounded_pure _ _) (bounded_pure _ _))
    (bounded_pure _ _)

omit hr in
theorem bounded_socketClose (fd : Nat) : Bounded w (Socket.close fd) 1 :=
  bounded_bind (k := 0) (bounded_sys _) fun _ => bounded_pure _ _

omit hr in
theorem bounded_unlink (path : Bytes) : Bounded w (Socket.unlink path) 2 := by
  refine bounded_bind (n := 1) (k := 1) (bounded_sys _) ?_
  rintro (_ | _ | _)
  · exact bounded_pure _ _
  · exact bounded_pure _ _
  · exact bounded_sys _

omit hr in
theorem bounded_open' (rt : Rt) (path : Bytes) (uid gid mode : Nat) :
    Bounded w (Socket.open' rt path uid gid mode) 12 := by
  have fin : ∀ old (x : Option Conn), Bounded w (do
      let _ ← Socket.unlink path
      let _ ← M.sys (.umask old)
      pure x) 3 := fun old x => bounded_bind (n := 2) (k := 1) (bounded_unlink _) fun _ =>
        bounded_bind (k := 0) (bounded_sys _) fun _ => bounded_pure _ _
  refine bounded_bind (n := 1) (k := 11) ?_ fun _ => bounded_ite (bounded_bind (n := 2) (k := 9) (bounded_unlink _)
    fun _ => bounded_ite (bounded_bind (n := 1) (k := 8) (bounded_sys _) fun old =>
      bounded_bind (n := 1) (k := 7) (bounded_sys _) fun r => ?_) (bounded_pure _ _)) (bounded_pure _ _)
  · unfold Socket.enforceOwnership
    split
    · exact bounded_pure _ _
    · refine bounded_ite (bounded_pure _ _) (bounded_bind (n := 1) (k := 0) (bounded_sys _) ?_)
      rintro (_ | st)
      · exact bounded_pure _ _
      · exact bounded_ite (bounded_pure _ _) (bounded_ite (bounded_pure _ _) (bounded_ite (bounded_pure _ _) (bounded_pure _ _)))
  · rcases r with fd | _ | _
    · refine bounded_bind (n := 4) (k := 3) ?_ fun x => fin old x
      refine bounded_ite (bounded_pure _ _) (bounded_bind (n := 1) (k := 3) (bounded_sys _) fun _ => bounded_ite
        (bounded_bind (n := 1) (k := 2) (bounded_sys _) fun _ => bounded_ite (bounded_ite (bounded_panic _)
          (bounded_bind (n := 1) (k := 1) (bounded_sys _) fun r => ?_)) (bounded_pure _ _)) (bounded_pure _ _))
      rcases r with ⟨n, b⟩
      split
      · exact bounded_sys _
      · exact bounded_panic _
      · exact bounded_pure _ _
      · exact bounded_panic _
    · exact bounded_bind (n := 4) (k := 3) (bounded_pure _ _) fun x => fin old x
    · exact bounded_bind (n := 4) (k := 3) (bounded_pure _ _) fun x => fin old x

theorem bounded_ttyPrompt (p : Pair) (prompt : Bytes) : Bounded w (p.ttyPrompt prompt) (1 + prompt.length) := by
  unfold Pair.ttyPrompt
  split
  · exact bounded_pure _ _
  · refine bounded_bind (bounded_sys _) fun _ => bounded_ite ?_ (bounded_pure _ _)
    refine bounded_mono (bounded_writeAll (k := 1) (fun b => wp_sys (by simp) ?_) _) (by omega)
    intro r
    refine ⟨by simp, fun hi => ?_⟩
    simp only [Out.ok.injEq] at hi
    have := hr ⟨.ttyWrite b, r⟩ (by subst hi; rfl)
    simp only [weigh, List.map_cons, List.map_nil, List.sum_cons, List.sum_nil]
    omega

omit hr in
theorem bounded_flush : Bounded w Socket.flush 3 := by
  refine wp_iff_runs.2 ?_
  intro o h hrun
  have := flush_runs hrun
  cases this <;> simp only [List.length_cons, List.length_nil] <;> omega

omit hr in
theorem bounded_read (fd : Nat) : Bounded w (Socket.read fd 1) 4 := by
  refine wp_iff_runs.2 ?_
  intro o h hrun
  obtain ⟨o', hg, _⟩ := read_runs hrun
  cases hg <;> simp only [List.length_cons, List.length_nil] <;> omega

end

/-! ### The weights for `open`: interrupted writes and the texts of the prompts -/

/-- The weight of an event if templates are expanded by `x`. -/
def weight (x : Bytes → Bytes) (e : Ev) : Nat :=
  (if retried e then 4 else 0) + match e with
    | ⟨.readFile _, some t⟩ => 4 * (x t).length
    | _ => 0

theorem weight_retried (x : Bytes → Bytes) (e : Ev) (h : retried e = true) : 4 ≤ weight x e := by
  unfold weight; rw [if_pos h]; omega

theorem weigh_weight (x : Bytes → Bytes) : ∀ h : Hist, weigh (weight x) h =
    4 * retries h + 4 * ((filesRead h).map fun t => (x t).length).sum
  | [] => rfl
  | e :: h => by
    have ih := weigh_weight x h
    have h1 : weigh (weight x) (e :: h) = weight x e + weigh (weight x) h := by simp [weigh]
    have h2 : retries (e :: h) = retries h + if retried e then 1 else 0 := by
      simp [retries, List.countP_cons]
    rw [h1, h2, ih]
    rcases e with ⟨c, r⟩
    unfold weight
    cases c with
    | readFile path =>
      cases r with
      | none => simp only [filesRead]; split <;> omega
      | some t => simp only [filesRead, List.map_cons, List.sum_cons]; split <;> omega
    | _ => simp only [filesRead]; split <;> omega

/-- The longest of the fixed error messages. -/
theorem errorKind_length (e : ErrorKind) : e.display.length ≤ 53 := by cases e <;> decide +kernel

theorem bounded_localPairPrompt (p : Pair) (spec : TemplateSpec) :
    Bounded (weight spec.expand) (p.localPairPrompt spec) (1 + (1 + 2 * (spec.expand defaultUserPrompt).length)) := by
  refine bounded_sys_bind fun t => ?_
  have hr := weight_retried spec.expand
  have key : Bounded (weight spec.expand) (do
      if ← p.ttyPrompt (spec.expand (t.getD defaultUserPrompt)) then pure ()
      else
        let _ ← (PrintFacility.stderr p.env.hasPrintf).writeAll (spec.expand (t.getD defaultUserPrompt))
        pure ()) (1 + 2 * (spec.expand (t.getD defaultUserPrompt)).length) := by
    refine bounded_mono (bounded_bind (bounded_ttyPrompt hr p _) fun _ => bounded_ite (bounded_pure _ _)
      (bounded_bind (k := 0) (bounded_printWriteAll hr _ _) fun _ => bounded_pure _ _)) (by omega)
  refine bounded_mono key ?_
  cases t with
  | none => simp only [Option.getD_none]; omega
  | some t =>
    have : weight spec.expand ⟨.readFile p.options.userPromptPath, some t⟩ = 4 * (spec.expand t).length := by
      simp [weight, retried]
    rw [this]
    simp only [Option.getD_some]
    omega

theorem bounded_remotePairPrompt (p : Pair) (spec : TemplateSpec) (fd : Nat) :
    Bounded (weight spec.expand) (p.remotePairPrompt spec fd) (1 + (15 + 4 * (spec.expand defaultPairPrompt).length)) := by
  refine bounded_sys_bind fun t => ?_
  have hr := weight_retried spec.expand
  refine bounded_mono (n := 4 * (spec.expand (t.getD defaultPairPrompt)).length + (3 + (4 + (4 + (4 + 0)))))
    (bounded_bind (bounded_socketWriteAll hr fd _) fun _ => bounded_ite (bounded_bind bounded_flush fun _ => bounded_ite
      (bounded_bind (bounded_read fd) fun r => ?_) (bounded_pure _ _)) (bounded_pure _ _)) ?_
  · split
    · exact bounded_pure _ _
    · exact bounded_bind (bounded_socketWriteAll hr fd [_]) fun _ =>
        bounded_bind (n := 4) (bounded_socketWriteAll hr fd (b! "\n")) fun _ => bounded_ite (bounded_pure _ _) (bounded_pure _ _)
  · cases t with
    | none => simp only [Option.getD_none]; omega
    | some t =>
      have : weight spec.expand ⟨.readFile p.options.pairPromptPath, some t⟩ = 4 * (spec.expand t).length := by
        simp [weight, retried]
      rw [this]
      simp only [Option.getD_some]
      omega

/-- The sizes of the built-in prompts after expansion. -/
def defaultSizes (spec : TemplateSpec) : Nat :=
  2 * (spec.expand defaultUserPrompt).length + 4 * (spec.expand defaultPairPrompt).length

theorem bounded_pairOpen (rt : Rt) (env : IoEnv) :
    Bounded (weight (Pair.ofEnv env).templateSpec.expand) (Pair.open rt env)
      (32 + defaultSizes (Pair.ofEnv env).templateSpec) := by
  refine bounded_mono (n := 0 + (1 + (1 + 2 * ((Pair.ofEnv env).templateSpec.expand defaultUserPrompt).length) +
      (12 + (1 + (15 + 4 * ((Pair.ofEnv env).templateSpec.expand defaultPairPrompt).length) + 1 + 1))))
    (bounded_bind (bounded_ofOption _ _) fun _ => bounded_ite (bounded_pure _ _) (bounded_ite (bounded_pure _ _)
      (bounded_bind (bounded_localPairPrompt (Pair.ofEnv env) _) fun _ => bounded_bind ?_ fun r => ?_))) (by unfold defaultSizes; omega)
  · refine bounded_mono (n := 0 + (12 + 0)) (bounded_bind (bounded_ofOption _ _) fun mode =>
      bounded_bind (bounded_open' _ _ _ _ _) fun c => ?_) (by omega)
    rcases c with _ | c <;> exact bounded_pure _ _
  · rcases r with e | fd
    · exact bounded_pure _ _
    · refine bounded_onUnwind (bounded_bind (bounded_remotePairPrompt (Pair.ofEnv env) _ _) fun r => ?_) (bounded_socketClose fd)
      rcases r with e | ⟨⟨⟩⟩
      · exact bounded_bind (n := 1) (k := 0) (bounded_socketClose fd) fun _ => bounded_pure _ _
      · exact bounded_pure _ _

/-- What `open` may need for its arguments. -/
def openEffort (rt : Rt) (a : OpenArgs) (st : State) (h : Hist) : Nat :=
  match IoEnv.new rt a with
  | none => 0
  | some (.error e) => 13 + e.display.length
  | some (.ok env0) =>
    let x := (Pair.ofEnv (effEnv st env0)).templateSpec
    99 + defaultSizes x + 4 * ((filesRead h).map fun t => (x.expand t).length).sum

theorem coreOpen_error {rt : Rt} {a : OpenArgs} {e : PluginError} (hn : IoEnv.new rt a = some (.error e)) (st : State) :
    Core.open rt a st = (do
      let _ ← M.catchUnwind ((PrintFacility.stderr a.hasPrintf).writeError e.display none)
      pure (Core.OPEN_DENY, st)) := by
  have hm : Core.makeEnv rt a = (do
      let _ ← (PrintFacility.stderr a.hasPrintf).writeError e.display none
      pure (.error Core.OPEN_DENY)) := by
    unfold Core.makeEnv; rw [hn, M.ofOption_some, M.pure_bind']
  unfold Core.open
  rw [hm]
  funext s
  simp only [M.bind_def, M.catchUnwind]
  rcases (PrintFacility.stderr a.hasPrintf).writeError e.display none s with ⟨b | _ | _, h, s'⟩ <;>
    simp [pure, M.pure]

theorem coreOpen_ok {rt : Rt} {a : OpenArgs} {env0 : IoEnv} (hn : IoEnv.new rt a = some (.ok env0)) (st : State) :
    Core.open rt a st = (do
      match ← M.catchUnwind (Core.makePlugin rt a.hasPrintf (effEnv st env0)) with
      | none => pure (Core.OPEN_DENY, withEnv st env0)
      | some (.error status) => pure (status, withEnv st env0)
      | some (.ok p) =>
        match st.plugin with
        | none   => pure (Core.OPEN_OK, { withEnv st env0 with plugin := some p })
        | some _ =>
          p.drop
          pure (Core.OPEN_OK, withEnv st env0)) := by
  have hm : M.catchUnwind (Core.makeEnv rt a) = pure (some (.ok env0)) := by
    unfold Core.makeEnv; rw [hn, M.ofOption_some, M.pure_bind']; rfl
  unfold Core.open
  rw [hm]
  exact (M.pure_bind' _ _).trans rfl

theorem coreOpen_none {rt : Rt} {a : OpenArgs} (hn : IoEnv.new rt a = none) (st : State) :
    Core.open rt a st = pure (Core.OPEN_DENY, st) := by
  have hm : M.catchUnwind (Core.makeEnv rt a) = pure none := by
    unfold Core.makeEnv; rw [hn]; rfl
  unfold Core.open
  rw [hm]
  exact M.pure_bind' _ _

theorem coreOpen_effort (rt : Rt) (a : OpenArgs) (st : State) :
    wp (Core.open rt a st) fun _ h => h.length ≤ openEffort rt a st h + 4 * retries h := by
  have we : ∀ (w : Ev → Nat), (∀ e, retried e = true → 4 ≤ w e) → ∀ b m, Bounded w
      ((PrintFacility.stderr b).writeError m none) (13 + m.length) :=
    fun w hw b m => bounded_mono (bounded_writeError hw _ _) (by
      show 1 + ((b! "sudo_pair: ").length + (m.length + 1) + 0) ≤ _
      have : (b! "sudo_pair: ").length = 11 := rfl
      omega)
  unfold openEffort
  cases hn : IoEnv.new rt a with
  | none => rw [coreOpen_none hn]; exact wp_pure (by simp)
  | some r =>
    cases r with
    | error e =>
      rw [coreOpen_error hn]
      have key := bounded_bind (k := 0) (bounded_catchUnwind (we (fun e => if retried e then 4 else 0)
        (fun e he => by simp [he]) a.hasPrintf e.display)) fun _ => bounded_pure (Core.OPEN_DENY, st) _
      refine wp_mono key ?_
      intro o h hh
      have : weigh (fun e => if retried e then 4 else 0) h = 4 * retries h := by
        clear hh
        induction h with
        | nil => rfl
        | cons e h ih =>
          have h1 : weigh (fun e => if retried e then 4 else 0) (e :: h) =
              (if retried e then 4 else 0) + weigh (fun e => if retried e then 4 else 0) h := by simp [weigh]
          have h2 : retries (e :: h) = retries h + if retried e then 1 else 0 := by
            simp [retries, List.countP_cons]
          rw [h1, h2, ih]
          split <;> omega
      simp only
      omega
    | ok env0 =>
      rw [coreOpen_ok hn]
      have hw := weight_retried (Pair.ofEnv (effEnv st env0)).templateSpec.expand
      have key : Bounded (weight (Pair.ofEnv (effEnv st env0)).templateSpec.expand) _
          (32 + defaultSizes (Pair.ofEnv (effEnv st env0)).templateSpec + (13 + 53 + 0) + 1) :=
        bounded_bind (bounded_catchUnwind (m := Core.makePlugin rt a.hasPrintf (effEnv st env0))
          (bounded_ite (bounded_pure _ _) (bounded_bind (bounded_pairOpen rt (effEnv st env0)) fun r => by
            rcases r with e | p
            · exact bounded_bind (bounded_mono (we _ hw a.hasPrintf e.display)
                (by have := errorKind_length e; omega)) fun _ => bounded_pure _ _
            · exact bounded_pure _ _)))
          (f := fun r => match r with
            | none => pure (Core.OPEN_DENY, withEnv st env0)
            | some (.error status) => pure (status, withEnv st env0)
            | some (.ok p) =>
              match st.plugin with
              | none   => pure (Core.OPEN_OK, { withEnv st env0 with plugin := some p })
              | some _ => do
                p.drop
                pure (Core.OPEN_OK, withEnv st env0)) fun r => by
          rcases r with _ | e | p
          · exact bounded_pure _ _
          · exact bounded_pure _ _
          · dsimp only
            cases st.plugin with
            | none => exact bounded_pure _ _
            | some q =>
              refine bounded_bind (n := 1) (k := 0) ?_ fun _ => bounded_pure _ _
              unfold Pair.drop
              split
              · exact bounded_pure _ _
              · exact bounded_socketClose _
      refine wp_mono key ?_
      intro o h hh
      rw [weigh_weight] at hh
      simp only
      omega

/-! ### C55 -/

/-- What a callback may need, apart from repetitions of interrupted writes: a fixed number of
interactions, four per byte shown to the pair and one per byte shown to the user. -/
def effort (rt : Rt) (c : Core.Call) (st : State) (h : Hist) : Nat :=
  match c with
  | .open a => openEffort rt a st h
  | .close => 2
  | .showVersion => 35
  | .log _ buf => 66 + 4 * buf.length
  | .changeWinsize l c => 66 + 4 * (Pair.winsizeSeq l c).length

theorem step_effort (rt : Rt) (c : Core.Call) (st : State) :
    wp (Core.step rt c st) fun _ h => h.length ≤ effort rt c st h + 4 * retries h := by
  have fin : ∀ {m : M (Int × State)} {n : Nat}, Bounded (weight fun _ => []) m n →
      wp m fun _ h => h.length ≤ n + 4 * retries h := by
    intro m n hb
    refine wp_mono hb ?_
    intro o h hh
    rw [weigh_weight] at hh
    have : ((filesRead h).map fun _ => ([] : Bytes).length).sum = 0 := by
      generalize filesRead h = l
      induction l with
      | nil => rfl
      | cons _ _ ih => simp
    rw [this] at hh
    exact hh
  have hw := weight_retried fun _ => []
  have we : ∀ b (e : ErrorKind), Bounded (weight fun _ => [])
      ((PrintFacility.stderr b).writeError e.display none) 66 :=
    fun b m => bounded_mono (bounded_writeError hw _ _) (by
      show 1 + ((b! "sudo_pair: ").length + (m.display.length + 1) + 0) ≤ _
      have : (b! "sudo_pair: ").length = 11 := rfl
      have := errorKind_length m
      omega)
  have fi : ∀ env (r : Except ErrorKind Unit), Bounded (weight fun _ => []) (Core.finish env r) 66 := by
    rintro env (e | ⟨⟨⟩⟩)
    · exact bounded_bind (k := 0) (we _ e) fun _ => bounded_pure _ _
    · exact bounded_pure _ _
  have lo : ∀ (p : Pair) buf, Bounded (weight fun _ => []) (p.logOutput buf) (4 * buf.length) := by
    intro p buf
    unfold Pair.logOutput
    split
    · exact bounded_pure _ _
    · exact bounded_bind (k := 0) (bounded_socketWriteAll hw _ _) fun _ => bounded_ite (bounded_pure _ _) (bounded_pure _ _)
  cases c with
  | «open» a => exact coreOpen_effort rt a st
  | close =>
    refine fin (bounded_bind (n := 2) (k := 0) ?_ fun _ => bounded_pure _ _)
    unfold Core.close
    cases st.plugin with
    | none => exact bounded_bind (n := 2) (k := 0) (bounded_pure _ _) fun _ => bounded_pure _ _
    | some p =>
      refine bounded_bind (n := 2) (k := 0) ?_ fun _ => bounded_pure _ _
      unfold Pair.close
      split
      · exact bounded_pure _ _
      · exact bounded_bind (n := 1) (bounded_socketClose _) fun _ => bounded_socketClose _
  | showVersion =>
    refine fin (bounded_bind (n := 35) (k := 0) (bounded_bind (k := 0) (bounded_catchUnwind ?_) ?_) fun _ => bounded_pure _ _)
    · refine bounded_mono (n := 0 + (35 + 0)) (bounded_bind (bounded_ofOption _ _) fun env =>
        bounded_bind ?_ fun _ => bounded_pure _ _) (by omega)
      have pieces : ∀ l : List Bytes, Bounded (weight fun _ => [])
          (Core.writePieces (PrintFacility.stdout env.hasPrintf) l) (l.map List.length).sum := by
        intro l
        induction l with
        | nil => exact bounded_pure _ _
        | cons x l ih =>
          rw [List.map_cons, List.sum_cons]
          exact bounded_bind (bounded_printWriteAll hw _ _) fun _ => bounded_ite ih (bounded_pure _ _)
      exact bounded_mono (pieces _) (by decide)
    · rintro (_ | ⟨⟨⟩⟩) <;> exact bounded_pure _ _
  | log f buf =>
    refine fin (bounded_mono (bounded_bind (k := 0) (bounded_bind (k := 0) (bounded_catchUnwind
      (n := 4 * buf.length + 66) ?_) fun _ => bounded_pure _ _) fun _ => bounded_pure _ _) (by show _ ≤ 66 + 4 * buf.length; omega))
    refine bounded_mono (bounded_bind (n := 0) (bounded_ofOption _ _) fun env => bounded_bind (n := 0)
      (k := 4 * buf.length + 66) (bounded_ofOption _ _) fun p =>
      bounded_ite (bounded_pure _ _) (bounded_bind ?_ fun _ => fi _ _)) (by omega)
    cases f
    · exact bounded_pure _ _
    · exact lo _ _
    · exact bounded_mono (n := 0 + 0) (bounded_bind (bounded_ofOption _ _) fun _ => bounded_ite (bounded_pure _ _) (bounded_pure _ _)) (by omega)
    · exact lo _ _
    · exact lo _ _
  | changeWinsize l c =>
    refine fin (bounded_mono (bounded_bind (k := 0) (bounded_bind (k := 0) (bounded_catchUnwind
      (n := 4 * (Pair.winsizeSeq l c).length + 66) ?_) fun _ => bounded_pure _ _) fun _ => bounded_pure _ _)
      (by show _ ≤ 66 + 4 * (Pair.winsizeSeq l c).length; omega))
    exact bounded_mono (bounded_bind (n := 0) (bounded_ofOption _ _) fun env => bounded_bind (n := 0)
      (bounded_ofOption _ _) fun p => bounded_bind (lo _ _) fun _ => fi _ _) (by omega)

/-- C55.  A callback performs a bounded number of interactions with the system. -/
theorem C55_bounded {rt c st o h} (hr : Runs (Core.step rt c st) o h) :
    h.length ≤ effort rt c st h + 4 * retries h :=
  wp_iff_runs.1 (step_effort rt c st) o h hr

/-! Which files are read. -/

theorem filesAsked_append (a b : Hist) : filesAsked (a ++ b) = filesAsked a ++ filesAsked b := by
  simp [filesAsked]

theorem filesRead_le : ∀ h : Hist, (filesRead h).length ≤ (filesAsked h).length
  | [] => Nat.le_refl 0
  | e :: h => by
    have ih := filesRead_le h
    rcases e with ⟨c, r⟩
    cases c with
    | readFile path =>
      have : filesAsked (⟨.readFile path, r⟩ :: h) = path :: filesAsked h := rfl
      rw [this]
      cases r with
      | none => simp only [filesRead, List.length_cons]; omega
      | some t => simp only [filesRead, List.length_cons]; omega
    | _ => exact ih

/-- Not the reading of a file. -/
def Unread (e : Ev) : Prop := ∀ path, e.call ≠ .readFile path

theorem filesAsked_none {h : Hist} (hh : ∀ e ∈ h, Unread e) : filesAsked h = [] := by
  refine List.filterMap_eq_nil_iff.2 fun e he => ?_
  have := hh e he
  rcases e with ⟨c, r⟩
  cases c <;> first | rfl | exact absurd rfl (this _)

theorem unread_of {α : Type} {m : M α} (h : AllEv Unread m) {o t} (hr : Runs m o t) : filesAsked t = [] :=
  filesAsked_none (wp_iff_runs.1 h o t hr)

theorem noRead_of {α : Type} {m : M α} (Q : Sys → Prop) (hm : ∀ o h, Runs m o h → ∀ e ∈ h, Q e.call)
    (hQ : ∀ p, ¬ Q (.readFile p)) : AllEv Unread m := by
  refine wp_iff_runs.2 ?_
  intro o h hr e he
  have := hm o h hr e he
  rcases e with ⟨c, r⟩
  unfold Unread
  cases c <;> first | exact absurd this (hQ _) | simp

theorem noRead_print (pf : PrintFacility) (m : Bytes) : AllEv Unread (pf.writeAll m) :=
  allEv_writeAll (fun _ => allEv_ite (allEv_pure _) (allEv_ite (allEv_pure _) (allEv_sys fun _ => by simp [Unread]))) _

theorem noRead_writeError (pf : PrintFacility) (m : Bytes) :
    AllEv Unread (pf.writeError m none) := by
  rw [writeError_none]
  exact allEv_bind (noRead_print _ _) fun _ => allEv_ite (allEv_bind (allEv_bind (noRead_print _ _) fun _ => allEv_ite
    (allEv_bind (noRead_print _ _) fun _ => allEv_ite (noRead_print _ _) (allEv_pure _)) (allEv_pure _)) fun _ => allEv_ite
      (allEv_pure _) (allEv_pure _)) (allEv_pure _)

theorem noRead_socketWriteAll (fd : Nat) (buf : Bytes) : AllEv Unread (Socket.writeAll fd buf) :=
  noRead_of (WriteCall fd) (fun _ _ hr => (socketWriteAll_runs hr).calls) (by simp [WriteCall])

theorem noRead_close (fd : Nat) : AllEv Unread (Socket.close fd) :=
  allEv_bind (allEv_sys fun _ => by simp [Unread]) fun _ => allEv_pure _

theorem noRead_flush : AllEv Unread Socket.flush := by
  refine wp_iff_runs.2 ?_
  intro o h hr
  have := flush_runs hr
  cases this <;> simp [Unread]

theorem noRead_read (fd : Nat) : AllEv Unread (Socket.read fd 1) := by
  refine wp_iff_runs.2 ?_
  intro o h hr
  obtain ⟨o', hg, _⟩ := read_runs hr
  cases hg <;> simp [Unread]

theorem asked_local {p : Pair} {spec : TemplateSpec} {o h} (hr : Runs (p.localPairPrompt spec) o h) :
    (o = .killed ∧ h = []) ∨ filesAsked h = [p.options.userPromptPath] := by
  unfold Pair.localPairPrompt at hr
  inv Runs.sys_bind hr with ⟨rfl, rfl⟩ | ⟨r, h', hr, rfl⟩
  · exact Or.inl ⟨rfl, rfl⟩
  · right
    have : filesAsked h' = [] := by
      refine unread_of (allEv_bind ?_ fun _ => allEv_ite
        (allEv_pure _) (allEv_bind (noRead_print _ _) fun _ => allEv_pure _)) hr
      unfold Pair.ttyPrompt
      split
      · exact allEv_pure _
      · exact allEv_bind (allEv_sys fun _ => by simp [Unread]) fun _ => allEv_ite
          (allEv_writeAll (fun _ => allEv_sys fun _ => by simp [Unread]) _) (allEv_pure _)
    show p.options.userPromptPath :: filesAsked h' = _
    rw [this]

theorem asked_remote {p : Pair} {spec : TemplateSpec} {fd o h} (hr : Runs (p.remotePairPrompt spec fd) o h) :
    (o = .killed ∧ h = []) ∨ filesAsked h = [p.options.pairPromptPath] := by
  unfold Pair.remotePairPrompt at hr
  inv Runs.sys_bind hr with ⟨rfl, rfl⟩ | ⟨r, h', hr, rfl⟩
  · exact Or.inl ⟨rfl, rfl⟩
  · right
    have : filesAsked h' = [] := by
      refine unread_of (allEv_bind (noRead_socketWriteAll _ _) fun _ => allEv_ite (allEv_bind noRead_flush fun _ =>
        allEv_ite (allEv_bind (noRead_read _) fun r => ?_) (allEv_pure _)) (allEv_pure _)) hr
      split
      · exact allEv_pure _
      · exact allEv_bind (noRead_socketWriteAll _ _) fun _ => allEv_bind (noRead_socketWriteAll _ _) fun _ =>
          allEv_ite (allEv_pure _) (allEv_pure _)
    show p.options.pairPromptPath :: filesAsked h' = _
    rw [this]

theorem asked_setup {h : Hist} (hs : ∀ e ∈ h, SetupCall e.call) : filesAsked h = [] := by
  refine filesAsked_none fun e he path hc => ?_
  have := hs e he
  rw [hc] at this
  exact this

theorem asked_prints {h : Hist} (hp : Prints h) : filesAsked h = [] := by
  refine filesAsked_none fun e he path hc => ?_
  have := hp e he
  rw [hc] at this
  exact this

/-- The prompt files, in the order in which they are read. -/
abbrev promptFiles (p : Pair) : List Bytes := [p.options.userPromptPath, p.options.pairPromptPath]

theorem asked_pairOpen {rt : Rt} {p : Pair} {o h} (hp : PairOpen rt p o h) : filesAsked h <+: promptFiles p := by
  have con : ∀ {o h}, Connects rt p o h → filesAsked h = [] := by
    rintro o h ⟨mode, _, hs⟩
    exact asked_setup (sockOpen_setup (open'_runs hs))
  have loc : ∀ {u h}, Runs (p.localPairPrompt p.templateSpec) (.ok u) h → filesAsked h = [p.options.userPromptPath] := by
    intro u h hr
    rcases asked_local hr with ⟨h, _⟩ | h
    · simp at h
    · exact h
  have shut : ∀ fd b, filesAsked [⟨.shutdown fd, b⟩] = [] := fun _ _ => rfl
  have one : [p.options.userPromptPath] <+: promptFiles p := ⟨[_], rfl⟩
  have two : ∀ {fd o h}, Runs (p.remotePairPrompt p.templateSpec fd) o h →
      p.options.userPromptPath :: filesAsked h <+: promptFiles p := by
    intro fd o h hr
    rcases asked_remote hr with ⟨_, rfl⟩ | h
    · exact one
    · rw [h]; exact List.prefix_refl _
  cases hp with
  | undecided => exact List.nil_prefix
  | exempt => exact List.nil_prefix
  | both => exact List.nil_prefix
  | localPanic _ _ hl =>
    rcases asked_local hl with ⟨h, _⟩ | h
    · simp at h
    · rw [h]; exact one
  | localKilled _ _ hl =>
    rcases asked_local hl with ⟨_, rfl⟩ | h
    · exact List.nil_prefix
    · rw [h]; exact one
  | noMode _ _ hl => rw [loc hl]; exact one
  | sockPanic _ _ hl hc => rw [filesAsked_append, loc hl, con hc]; exact one
  | sockKilled _ _ hl hc => rw [filesAsked_append, loc hl, con hc]; exact one
  | sockErr _ _ hl hc => rw [filesAsked_append, loc hl, con hc]; exact one
  | approved _ _ hl hc hr => rw [filesAsked_append, filesAsked_append, loc hl, con hc]; exact two hr
  | declined _ _ hl hc hr =>
    rw [filesAsked_append, filesAsked_append, filesAsked_append, loc hl, con hc, shut, List.append_nil]; exact two hr
  | paniced _ _ hl hc hr =>
    rw [filesAsked_append, filesAsked_append, filesAsked_append, loc hl, con hc, shut, List.append_nil]; exact two hr
  | killed _ _ hl hc hr => rw [filesAsked_append, filesAsked_append, loc hl, con hc]; exact two hr

/-- C55: `open` reads no file but the two prompt files that the session is configured with, each at most
once and the one for the user first. -/
theorem C55_files_open {rt a st o h} (hr : Runs (Core.open rt a st) o h) :
    filesAsked h = [] ∨ ∃ env0, IoEnv.new rt a = some (.ok env0) ∧
      filesAsked h <+: promptFiles (Pair.ofEnv (effEnv st env0)) := by
  cases coreOpen_runs hr with
  | envPanic h1 => exact Or.inl rfl
  | envErr h1 h2 => exact Or.inl (asked_prints h2)
  | envKilled h1 h2 => exact Or.inl (asked_prints h2)
  | empty h1 => exact Or.inl rfl
  | panic h1 _ h3 => exact Or.inr ⟨_, h1, asked_pairOpen h3⟩
  | killed h1 _ h3 => exact Or.inr ⟨_, h1, asked_pairOpen h3⟩
  | refused h1 _ h3 h4 =>
    exact Or.inr ⟨_, h1, by rw [filesAsked_append, asked_prints h4, List.append_nil]; exact asked_pairOpen h3⟩
  | refusedKilled h1 _ h3 h4 =>
    exact Or.inr ⟨_, h1, by rw [filesAsked_append, asked_prints h4, List.append_nil]; exact asked_pairOpen h3⟩
  | accepted h1 _ h3 => exact Or.inr ⟨_, h1, asked_pairOpen h3⟩
  | again h1 _ h3 _ h5 =>
    refine Or.inr ⟨_, h1, ?_⟩
    rw [filesAsked_append, unread_of ?_ h5, List.append_nil]
    · exact asked_pairOpen h3
    · unfold Pair.drop
      split
      · exact allEv_pure _
      · exact noRead_close _
  | againKilled h1 _ h3 => exact Or.inr ⟨_, h1, asked_pairOpen h3⟩

/-- C55: no other callback reads a file. -/
theorem C55_files_other {rt c st o h} (hc : ∀ a, c ≠ .open a) (hr : Runs (Core.step rt c st) o h) :
    filesAsked h = [] := by
  have fi : ∀ env (r : Except ErrorKind Unit), AllEv Unread (Core.finish env r) := by
    rintro env (e | ⟨⟨⟩⟩)
    · exact allEv_bind (noRead_writeError _ _) fun _ => allEv_pure _
    · exact allEv_pure _
  have lo : ∀ (p : Pair) buf, AllEv Unread (p.logOutput buf) := by
    intro p buf
    unfold Pair.logOutput
    split
    · exact allEv_pure _
    · exact allEv_bind (noRead_socketWriteAll _ _) fun _ => allEv_ite (allEv_pure _) (allEv_pure _)
  refine unread_of ?_ hr
  cases c with
  | «open» a => exact absurd rfl (hc a)
  | close =>
    refine allEv_bind ?_ fun _ => allEv_pure _
    unfold Core.close
    cases st.plugin with
    | none => exact allEv_pure _
    | some p =>
      refine allEv_bind (m := p.close) ?_ fun _ => allEv_pure _
      unfold Pair.close
      split
      · exact allEv_pure _
      · exact allEv_bind (noRead_close _) fun _ => noRead_close _
  | showVersion =>
    refine allEv_bind (allEv_bind (allEv_catchUnwind (allEv_bind (allEv_ofOption _) fun env =>
      allEv_bind ?_ fun _ => allEv_pure _)) ?_) fun _ => allEv_pure _
    · generalize Core.versionPieces = l
      induction l with
      | nil => exact allEv_pure _
      | cons x l ih => exact allEv_bind (noRead_print _ _) fun _ => allEv_ite ih (allEv_pure _)
    · rintro (_ | ⟨⟨⟩⟩) <;> exact allEv_pure _
  | log f buf =>
    refine allEv_bind (allEv_bind (allEv_catchUnwind (allEv_bind (allEv_ofOption _) fun env =>
      allEv_bind (allEv_ofOption _) fun p => allEv_ite (allEv_pure _) (allEv_bind ?_ fun _ => fi _ _)))
      fun _ => allEv_pure _) fun _ => allEv_pure _
    cases f
    · exact allEv_pure _
    · exact lo _ _
    · exact allEv_bind (allEv_ofOption _) fun _ => allEv_ite (allEv_pure _) (allEv_pure _)
    · exact lo _ _
    · exact lo _ _
  | changeWinsize l k =>
    exact allEv_bind (allEv_bind (allEv_catchUnwind (allEv_bind (allEv_ofOption _) fun env =>
      allEv_bind (allEv_ofOption _) fun p => allEv_bind (lo _ _) fun _ => fi _ _))
      fun _ => allEv_pure _) fun _ => allEv_pure _

/-- C55: at most two files are read. -/
theorem C55_two_files {rt c st o h} (hr : Runs (Core.step rt c st) o h) : (filesAsked h).length ≤ 2 := by
  by_cases hc : ∃ a, c = .open a
  · obtain ⟨a, rfl⟩ := hc
    rcases C55_files_open (show Runs (Core.open rt a st) o h from hr) with h | ⟨_, _, h⟩
    · rw [h]; simp
    · exact h.length_le
  · rw [C55_files_other (fun a h => hc ⟨a, h⟩) hr]
    simp

/-! ### Termination -/

/-- The answer never reports an interrupted write. -/
def Uninterrupted (a : Answer) : Prop := ∀ c, retried ⟨c, a c⟩ = false

theorem answered_mem {s : Sched} {h : Hist} (ha : Answered s h) {e : Ev} (he : e ∈ h) : ∃ a ∈ s, e.resp = a e.call := by
  induction ha with
  | nil => simp at he
  | cons h1 h2 ih =>
    rcases List.mem_cons.1 he with rfl | he
    · exact ⟨_, List.mem_cons_self, h1⟩
    · obtain ⟨a, ha, h3⟩ := ih he
      exact ⟨a, List.mem_cons_of_mem _ ha, h3⟩

/-- What has to be true of a schedule for a callback to be cut short: it is used up, and it is no longer
than the bound. -/
theorem C55_cut {rt c st s h s'} (hrun : Core.step rt c st s = (.killed, h, s')) :
    s' = [] ∧ Answered s h ∧ s.length = h.length ∧ s.length ≤ effort rt c st h + 4 * retries h := by
  have hf := (prog_step rt c st).faithful s
  have h2 := C55_bounded (runs_of hrun)
  have h3 := hf.length
  have h4 := hf.killed (by rw [hrun])
  obtain ⟨used, h5, h6⟩ := hf.used
  rw [hrun] at h3 h4 h5 h6
  simp only at h4
  subst h4
  simp only [List.length_nil, List.append_nil] at h3 h5
  subst h5
  exact ⟨rfl, h6, h3, by omega⟩

/-- The sizes of the files that a schedule may supply are at most `N` after expansion. -/
def FilesBelow (x : Bytes → Bytes) (N : Nat) (s : Sched) : Prop :=
  ∀ a ∈ s, ∀ path t, a (.readFile path) = some t → (x t).length ≤ N

/-- What a callback needs if no prompt is longer than `N`. -/
def budget (rt : Rt) (c : Core.Call) (st : State) (N : Nat) : Nat :=
  match c with
  | .open a => match IoEnv.new rt a with
    | none => 0
    | some (.error e) => 13 + e.display.length
    | some (.ok env0) => 99 + defaultSizes (Pair.ofEnv (effEnv st env0)).templateSpec + 8 * N
  | .close => 2
  | .showVersion => 35
  | .log _ buf => 66 + 4 * buf.length
  | .changeWinsize l c => 66 + 4 * (Pair.winsizeSeq l c).length

theorem filesRead_mem : ∀ {h : Hist} {t : Bytes}, t ∈ filesRead h → ∃ path, (⟨.readFile path, some t⟩ : Ev) ∈ h
  | [], _, ht => by simp [filesRead] at ht
  | ⟨c, r⟩ :: h, t, ht => by
    have tl : t ∈ filesRead h → ∃ path, (⟨.readFile path, some t⟩ : Ev) ∈ ⟨c, r⟩ :: h := fun ht => by
      obtain ⟨p, hp⟩ := filesRead_mem ht
      exact ⟨p, List.mem_cons_of_mem _ hp⟩
    cases c with
    | readFile path =>
      cases r with
      | none => exact tl ht
      | some t' =>
        simp only [filesRead, List.mem_cons] at ht
        rcases ht with rfl | ht
        · exact ⟨path, List.mem_cons_self⟩
        · exact tl ht
    | _ => exact tl ht

theorem sum_le_of : ∀ {l : List Nat} {N : Nat}, (∀ x ∈ l, x ≤ N) → l.sum ≤ l.length * N
  | [], _, _ => by simp
  | a :: l, N, h => by
    have := sum_le_of (l := l) (fun x hx => h x (List.mem_cons_of_mem _ hx))
    have := h a List.mem_cons_self
    rw [List.sum_cons, List.length_cons, Nat.succ_mul]
    omega

/-- C55.  Every callback ends: with enough answers, none of them an interrupted write, it returns a
value.  (The answers may be failures, hang-ups, refusals; the pair may be slow, but answers.) -/
theorem C55_ends {rt c st s N} (hu : ∀ a ∈ s, Uninterrupted a)
    (hN : ∀ a env0, c = .open a → IoEnv.new rt a = some (.ok env0) →
      FilesBelow (Pair.ofEnv (effEnv st env0)).templateSpec.expand N s)
    (hs : budget rt c st N < s.length) :
    ∃ r st' h s', Core.step rt c st s = (.ok (r, st'), h, s') := by
  rcases hrun : Core.step rt c st s with ⟨⟨r, st'⟩ | _ | _, h, s'⟩
  · exact ⟨r, st', h, s', rfl⟩
  · exact absurd (runs_of hrun) (C08_no_panic rt c st h)
  · exfalso
    obtain ⟨rfl, h1, h2, h3⟩ := C55_cut hrun
    have hr0 : retries h = 0 := by
      refine List.countP_eq_zero.2 fun e he => ?_
      obtain ⟨a, ha, h4⟩ := answered_mem h1 he
      have := hu a ha e.call
      rw [← h4] at this
      simp [this]
    have hb : effort rt c st h ≤ budget rt c st N := by
      cases c with
      | «open» a =>
        simp only [effort, budget, openEffort]
        cases hn : IoEnv.new rt a with
        | none => exact Nat.le_refl _
        | some x =>
          cases x with
          | error e => exact Nat.le_refl _
          | ok env0 =>
            simp only
            have hlen : (filesRead h).length ≤ 2 :=
              Nat.le_trans (filesRead_le h) (C55_two_files (runs_of hrun))
            have := sum_le_of (l := (filesRead h).map fun t =>
              ((Pair.ofEnv (effEnv st env0)).templateSpec.expand t).length) (N := N) (by
                intro x hx
                obtain ⟨t, ht, rfl⟩ := List.mem_map.1 hx
                obtain ⟨path, hp⟩ := filesRead_mem ht
                obtain ⟨b, hb, h5⟩ := answered_mem h1 hp
                exact hN a env0 rfl hn b hb path t h5.symm)
            rw [List.length_map] at this
            have h6 : (filesRead h).length * N ≤ 2 * N := Nat.mul_le_mul_right N hlen
            omega
      | _ => exact Nat.le_refl _
    rw [hr0] at h3
    omega

/-- C55: the result does not depend on answers that were not asked for. -/
theorem C55_stable {rt c st s r h s'} (hrun : Core.step rt c st s = (.ok r, h, s')) (t : Sched) :
    Core.step rt c st (s ++ t) = (.ok r, h, s' ++ t) := by
  have := (prog_step rt c st).stable s (by rw [hrun]; simp) t
  rw [hrun] at this
  exact this

theorem coop_uninterrupted (r : UInt8) : Uninterrupted (coop r) := by
  intro c
  cases c <;> rfl

/-- Non-vacuity of `C55_ends`: an operating system that answers everything. -/
example (n : Nat) (hn : 4000 ≤ n) : ∃ r st' h s',
    Core.step sampleRt (.open sampleArgs) Core.init (List.replicate n (coop 121)) = (.ok (r, st'), h, s') := by
  refine C55_ends (N := 0) ?_ ?_ ?_
  · intro a ha
    rw [List.eq_of_mem_replicate ha]
    exact coop_uninterrupted 121
  · intro a env0 _ _ b hb path t h
    rw [List.eq_of_mem_replicate hb] at h
    simp [coop] at h
  · rw [List.length_replicate]
    have : budget sampleRt (.open sampleArgs) Core.init 0 < 4000 := by decide +kernel
    omega

/-! ### C41 -/

/-- The text `write_error` should show for an error with these causes. -/
def errorText (tag msg : Bytes) (causes : List Bytes) : Bytes :=
  b! "\n" ++ (msg :: causes).flatMap fun m => tag ++ m ++ b! "\n"

/-- The full C41 statement: the number of interactions of `write_error` is bounded (repetitions of
interrupted writes aside), and when it reports success the error and each of its causes were shown
once, in order.  (`write_error` looks at the first cause only, the loop being wrong.) -/
def C41Full : Prop := ∀ (pf : PrintFacility) (msg : Bytes) (causes : List Bytes), ∃ n, ∀ o h,
  Runs (pf.writeError msg causes.head?) o h → h.length ≤ n + 4 * retries h ∧
    (o = .ok true → (37 : UInt8) ∉ pf.tag → (∀ m ∈ msg :: causes, (37 : UInt8) ∉ m) → PrintfTruth h →
      screen h = some (errorText pf.tag msg causes))

theorem weigh_retried (h : Hist) : weigh (fun e => if retried e then 4 else 0) h = 4 * retries h := by
  induction h with
  | nil => rfl
  | cons e h ih =>
    have h1 : weigh (fun e => if retried e then 4 else 0) (e :: h) =
        (if retried e then 4 else 0) + weigh (fun e => if retried e then 4 else 0) h := by simp [weigh]
    have h2 : retries (e :: h) = retries h + if retried e then 1 else 0 := by
      simp [retries, List.countP_cons]
    rw [h1, h2, ih]
    split <;> omega

/-- C41 for errors without a cause: at most two interactions more than there are bytes in the tag and the
message, and success means that the error was shown once.  Missing for the full statement: errors
with causes, see `C41_counterexample`. -/
theorem C41_terminates_partial {pf : PrintFacility} {msg : Bytes} {o h} (hr : Runs (pf.writeError msg none) o h) :
    h.length ≤ pf.tag.length + msg.length + 2 + 4 * retries h ∧
    (o = .ok true → (37 : UInt8) ∉ pf.tag → (37 : UInt8) ∉ msg → PrintfTruth h →
      screen h = some (errorText pf.tag msg [])) := by
  constructor
  · have := wp_iff_runs.1 (bounded_writeError (w := fun e => if retried e then 4 else 0)
      (fun e he => by simp [he]) pf msg) o h hr
    rw [weigh_retried] at this
    omega
  · rintro rfl htag hm ht
    rw [C40_error_partial hr htag hm ht]
    simp [errorText]

/-- C41 for errors without a cause: with enough answers, none of them an interruption, it ends. -/
theorem C41_ends_partial {pf : PrintFacility} {msg : Bytes} {s : Sched} (hu : ∀ a ∈ s, Uninterrupted a)
    (hs : pf.tag.length + msg.length + 2 < s.length) : (pf.writeError msg none s).1 ≠ .killed := by
  intro hk
  have hf := (prog_writeError pf msg).faithful s
  have h1 := (C41_terminates_partial (pf := pf) (msg := msg) (o := (pf.writeError msg none s).1)
    (h := (pf.writeError msg none s).2.1) ⟨s, rfl, rfl⟩).1
  have h2 := hf.length
  have h3 := hf.killed hk
  obtain ⟨used, h4, h5⟩ := hf.used
  rw [h3] at h2 h4
  simp only [List.length_nil, List.append_nil] at h2 h4
  subst h4
  have hr0 : retries (pf.writeError msg none s).2.1 = 0 := by
    refine List.countP_eq_zero.2 fun e he => ?_
    obtain ⟨a, ha, h4⟩ := answered_mem h5 he
    have := hu a ha e.call
    rw [← h4] at this
    simp [this]
  omega

theorem sourceLoop_some_never {pf : PrintFacility} {m : Bytes} :
    ∀ n h, ¬ Runs (pf.sourceLoop (some m) n) (.ok true) h
  | 0, h, ⟨s, h1, _⟩ => by cases h1
  | n + 1, h, hr => by
    unfold PrintFacility.sourceLoop at hr
    inv Runs.bind hr with ⟨b, h1, h2, k1, hr, rfl⟩ | ⟨h, _⟩ | ⟨h, _⟩
    · cases b with
      | false => have := hr.pure.1; simp at this
      | true => exact sourceLoop_some_never n h2 hr
    · simp at h
    · simp at h

/-- C41: with a cause, `write_error` never succeeds. -/
theorem C41_never {pf : PrintFacility} {msg m : Bytes} {h} : ¬ Runs (pf.writeError msg (some m)) (.ok true) h := by
  intro hr
  unfold PrintFacility.writeError at hr
  inv Runs.bind hr with ⟨b, h1, h2, k1, hr, rfl⟩ | ⟨h, _⟩ | ⟨h, _⟩
  · cases b with
    | false => have := hr.pure.1; simp at this
    | true =>
      simp only [if_true] at hr
      inv Runs.bind hr with ⟨b, h3, h4, k2, hr, rfl⟩ | ⟨h, _⟩ | ⟨h, _⟩
      · cases b with
        | false => have := hr.pure.1; simp at this
        | true =>
          obtain ⟨s, e1, e2⟩ := hr
          exact sourceLoop_some_never _ _ ⟨s, e1, e2⟩
      · simp at h
      · simp at h
  · simp at h
  · simp at h

/-- A printf that prints everything. -/
def PrintsAll (a : Answer) : Prop := ∀ level fmt, a (.printf level fmt) = .wrote fmt.length

/-- As long as everything is printed, `m` succeeds or the schedule is used up, without repetitions. -/
def Smooth (m : M Bool) : Prop := ∀ s : Sched, (∀ a ∈ s, PrintsAll a) → ∃ h, retries h = 0 ∧
  ((m s = (.ok true, h, s.drop h.length) ∧ h.length ≤ s.length) ∨ (m s = (.killed, h, []) ∧ h.length = s.length))

theorem smooth_writeAll {pf : PrintFacility} {buf : Bytes} (hp : pf.hasPrintf = true) (h0 : (0 : UInt8) ∉ buf) :
    Smooth (pf.writeAll buf) := by
  intro s hs
  cases buf with
  | nil => exact ⟨[], rfl, Or.inl ⟨by rw [PrintFacility.writeAll, writeAll_nil]; rfl, by simp⟩⟩
  | cons b bs =>
    unfold PrintFacility.writeAll
    rw [Prog.writeAll_eq (w := pf.write) (fun _ => prog_ite (.pure _) (prog_ite (.pure _) (.sys _))) (lively_print pf)]
    have hw : pf.write (b :: bs) = M.sys (.printf pf.level (b :: bs)) := by
      unfold PrintFacility.write
      rw [if_neg (by simp [hp]), if_neg h0]
    rw [hw]
    cases s with
    | nil => exact ⟨[], rfl, Or.inr ⟨rfl, rfl⟩⟩
    | cons a s =>
      have ha := hs a List.mem_cons_self pf.level (b :: bs)
      refine ⟨[⟨.printf pf.level (b :: bs), a (.printf pf.level (b :: bs))⟩], ?_, Or.inl ⟨?_, by simp⟩⟩
      · rw [ha]; rfl
      · rw [M.bind_def]
        simp only [M.sys]
        rw [ha]
        simp only [List.length_cons, writeRound, Nat.le_refl, if_true, List.length_nil, List.drop_succ_cons, List.drop_zero]
        have : List.drop bs.length bs = [] := by simp
        rw [this, writeAll_nil]
        rfl

theorem smooth_bind {m n : M Bool} {k : M Bool} (hm : Smooth m) (hn : Smooth n) :
    Smooth (do if ← m then n else k) := by
  intro s hs
  obtain ⟨h, h1, h2⟩ := hm s hs
  rcases h2 with ⟨h2, h3⟩ | ⟨h2, h3⟩
  · obtain ⟨h', k1, k2⟩ := hn (s.drop h.length) fun a ha => hs a (List.mem_of_mem_drop ha)
    refine ⟨h ++ h', by unfold retries at h1 k1 ⊢; rw [List.countP_append, h1, k1], ?_⟩
    rw [M.bind_def, h2]
    simp only [if_true]
    rcases k2 with ⟨k2, k3⟩ | ⟨k2, k3⟩
    · rw [k2]
      rw [List.length_drop] at k3
      exact Or.inl ⟨by rw [List.drop_drop, List.length_append], by rw [List.length_append]; omega⟩
    · rw [k2]
      rw [List.length_drop] at k3
      exact Or.inr ⟨rfl, by rw [List.length_append]; omega⟩
  · refine ⟨h, h1, Or.inr ⟨?_, h3⟩⟩
    rw [M.bind_def, h2]

theorem smooth_writeLine {pf : PrintFacility} {l : Bytes} (hp : pf.hasPrintf = true) (ht : (0 : UInt8) ∉ pf.tag)
    (hl : (0 : UInt8) ∉ l) : Smooth (pf.writeLine l) :=
  smooth_bind (smooth_writeAll hp ht) (smooth_bind (smooth_writeAll hp hl) (smooth_writeAll hp (by decide)))

theorem writeAll_ne_nil {pf : PrintFacility} {buf : Bytes} {h} (hb : buf ≠ []) (hr : Runs (pf.writeAll buf) (.ok true) h) :
    h ≠ [] := by
  have : wp (pf.writeAll buf) fun o h => buf ≠ [] → o = .ok true → h ≠ [] := by
    refine wp_writeAll (P := fun buf o h => buf ≠ [] → o = .ok true → h ≠ []) (by simp) (by simp) ?_ buf
    intro buf hne
    unfold PrintFacility.write
    refine wp_ite (fun hp => wp_pure ?_) (fun hp => wp_ite (fun h0 => wp_pure ?_) (fun h0 => wp_sys ?_ ?_))
    · intro _ h; simp at h
    · intro _ h; simp at h
    · intro _ h; simp at h
    · rintro ((_ | n) | _ | _)
      · intro _ h; simp at h
      · exact ⟨fun _ o h' _ _ _ => by simp, fun _ _ h => by simp at h⟩
      · exact fun o h' _ _ _ => by simp
      · intro _ h; simp at h
  exact wp_iff_runs.1 this _ _ hr hb rfl

theorem writeLine_ne_nil {pf : PrintFacility} {l : Bytes} {h} (hr : Runs (pf.writeLine l) (.ok true) h) : h ≠ [] := by
  unfold PrintFacility.writeLine at hr
  inv Runs.bind hr with ⟨b, h1, h2, k1, hr, rfl⟩ | ⟨h, _⟩ | ⟨h, _⟩
  · cases b with
    | false => have := hr.pure.1; simp at this
    | true =>
      simp only [if_true] at hr
      inv Runs.bind hr with ⟨b, h3, h4, k2, hr, rfl⟩ | ⟨h, _⟩ | ⟨h, _⟩
      · cases b with
        | false => have := hr.pure.1; simp at this
        | true =>
          simp only [if_true] at hr
          have := writeAll_ne_nil (by decide) hr
          simp [this]
      · simp at h
      · simp at h
  · simp at h
  · simp at h

theorem sourceLoop_smooth {pf : PrintFacility} {m : Bytes} (hp : pf.hasPrintf = true) (ht : (0 : UInt8) ∉ pf.tag)
    (hm : (0 : UInt8) ∉ m) : ∀ n (s : Sched), (∀ a ∈ s, PrintsAll a) → s.length < n → ∃ h, retries h = 0 ∧
      pf.sourceLoop (some m) n s = (.killed, h, []) ∧ h.length = s.length
  | 0, s, _, hn => by omega
  | n + 1, s, hs, hn => by
    unfold PrintFacility.sourceLoop
    obtain ⟨h, h1, h2⟩ := smooth_writeLine hp ht hm s hs
    rcases h2 with ⟨h2, h3⟩ | ⟨h2, h3⟩
    · have hne := List.length_pos_iff.2 (writeLine_ne_nil (runs_of h2))
      obtain ⟨h', k1, k2, k3⟩ := sourceLoop_smooth hp ht hm n (s.drop h.length)
        (fun a ha => hs a (List.mem_of_mem_drop ha)) (by rw [List.length_drop]; omega)
      rw [List.length_drop] at k3
      refine ⟨h ++ h', by unfold retries at h1 k1 ⊢; rw [List.countP_append, h1, k1], ?_, by rw [List.length_append]; omega⟩
      simp only [M.bind_def, h2, if_true, k2]
    · exact ⟨h, h1, by simp only [M.bind_def, h2], h3⟩

/-- C41: the full statement fails.  For an error with a cause, however long printf goes on printing,
`write_error` goes on printing the first cause. -/
theorem C41_counterexample :
    (∀ (pf : PrintFacility) (msg m : Bytes) (s : Sched), pf.hasPrintf = true → (0 : UInt8) ∉ pf.tag → (0 : UInt8) ∉ msg →
      (0 : UInt8) ∉ m → (∀ a ∈ s, PrintsAll a) →
      (pf.writeError msg (some m) s).1 = .killed ∧ (pf.writeError msg (some m) s).2.1.length = s.length ∧
      retries (pf.writeError msg (some m) s).2.1 = 0) ∧ ¬ C41Full := by
  have key : ∀ (pf : PrintFacility) (msg m : Bytes) (s : Sched), pf.hasPrintf = true → (0 : UInt8) ∉ pf.tag →
      (0 : UInt8) ∉ msg → (0 : UInt8) ∉ m → (∀ a ∈ s, PrintsAll a) →
      (pf.writeError msg (some m) s).1 = .killed ∧ (pf.writeError msg (some m) s).2.1.length = s.length ∧
      retries (pf.writeError msg (some m) s).2.1 = 0 := by
    intro pf msg m s hp ht hmsg hm hs
    have hsm : Smooth (fun s => pf.sourceLoop (some m) (s.length + 1) s) := by
      intro s hs
      obtain ⟨h, h1, h2, h3⟩ := sourceLoop_smooth hp ht hm (s.length + 1) s hs (by omega)
      exact ⟨h, h1, Or.inr ⟨h2, h3⟩⟩
    have : Smooth (pf.writeError msg (some m)) :=
      smooth_bind (smooth_writeAll hp (by decide)) (smooth_bind (smooth_writeLine hp ht hmsg) hsm)
    obtain ⟨h, h1, ⟨h2, h3⟩ | ⟨h2, h3⟩⟩ := this s hs
    · exact absurd (runs_of h2) C41_never
    · rw [h2]; exact ⟨rfl, h3, h1⟩
  refine ⟨key, fun hf => ?_⟩
  obtain ⟨n, hn⟩ := hf (PrintFacility.stderr true) (b! "a") [b! "b"]
  have hs : ∀ a ∈ List.replicate (n + 1) (coop 121), PrintsAll a := by
    intro a ha
    rw [List.eq_of_mem_replicate ha]
    exact fun _ _ => rfl
  obtain ⟨h1, h2, h3⟩ := key (PrintFacility.stderr true) (b! "a") (b! "b") _ rfl (by decide) (by decide) (by decide) hs
  have := (hn _ _ ⟨List.replicate (n + 1) (coop 121), rfl, rfl⟩).1
  simp only [List.head?_cons] at this
  rw [h3, h2, List.length_replicate] at this
  omega

/-- Non-vacuity of the partial results: an error without a cause is shown. -/
example : ((PrintFacility.stderr true).writeError (b! "pair declined the session") none (List.replicate 5 (coop 121))).1 = .ok true ∧
    screen ((PrintFacility.stderr true).writeError (b! "pair declined the session") none (List.replicate 5 (coop 121))).2.1 =
      some (b! "\nsudo_pair: pair declined the session\n") := by decide +kernel

end SudoPair
