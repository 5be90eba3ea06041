import Verif.Spec.Handles
import Verif.Lemmas.Lawful
import Verif.Lemmas.Audit
/-
Forgetting the closing of descriptors; reasoning about the open descriptors of a run.
-/
namespace SudoPair.Handles

variable {α β : Type}

/-- The interactions among the steps of a run. -/
def sysOf (t : List Step) : Hist := t.filterMap (fun | .sys e => some e | _ => none)

@[simp] theorem sysOf_append (t u : List Step) : sysOf (t ++ u) = sysOf t ++ sysOf u := List.filterMap_append ..

@[simp] theorem sysOf_sys (h : Hist) : sysOf (h.map .sys) = h := by
  induction h with
  | nil => rfl
  | cons e h ih => simp only [sysOf, List.map_cons, List.filterMap_cons] at *; rw [ih]

theorem H.bind_def (m : H α) (f : α → H β) (s : Sched) :
    (m >>= f) s = match m s with
      | (.ok a, h, s')   => ((f a s').1, h ++ (f a s').2.1, (f a s').2.2)
      | (.panic, h, s')  => (.panic, h, s')
      | (.killed, h, s') => (.killed, h, s') := rfl

theorem H.erase_def (m : H α) (s : Sched) : H.erase m s = ((m s).1, sysOf (m s).2.1, (m s).2.2) := rfl

/-! ### Forgetting the closing -/

@[simp] theorem forget_pure (a : α) : H.erase (pure a : H α) = pure a := rfl

@[simp] theorem forget_bind (m : H α) (f : α → H β) : H.erase (m >>= f) = H.erase m >>= fun a => H.erase (f a) := by
  funext s
  simp only [H.erase_def, H.bind_def, M.bind_def]
  rcases m s with ⟨a | _ | _, h, s'⟩
  · simp only [sysOf_append]
  · rfl
  · rfl

@[simp] theorem forget_lift (m : M α) : H.erase (H.lift m) = m := by
  funext s
  simp only [H.erase_def, H.lift]
  rw [sysOf_sys]

@[simp] theorem forget_closeListener (fd : Nat) : H.erase (H.closing (.closeListener fd)) = pure () := rfl
@[simp] theorem forget_closeStream (fd : Nat) : H.erase (H.closing (.closeStream fd)) = pure () := rfl
@[simp] theorem forget_closeTty : H.erase (H.closing .closeTty) = pure () := rfl

@[simp] theorem forget_catchUnwind (m : H α) : H.erase (H.catchUnwind m) = M.catchUnwind (H.erase m) := by
  funext s
  simp only [H.erase_def, H.catchUnwind, M.catchUnwind]
  rcases m s with ⟨a | _ | _, h, s'⟩ <;> rfl

@[simp] theorem forget_onUnwind (m : H α) (c : H Unit) :
    H.erase (H.onUnwind m c) = M.onUnwind (H.erase m) (H.erase c) := by
  funext s
  simp only [H.erase_def, H.onUnwind, M.onUnwind]
  rcases m s with ⟨a | _ | _, h, s'⟩
  · rfl
  · simp only
    rcases c s' with ⟨a | _ | _, h', s''⟩ <;> simp only [sysOf_append]
  · rfl

@[simp] theorem forget_ite (c : Prop) [Decidable c] (m n : H α) :
    H.erase (if c then m else n) = if c then H.erase m else H.erase n := by split <;> rfl

theorem forget_owning (m : H α) (d : H Unit) (hd : H.erase d = pure ()) : H.erase (H.owning m d) = H.erase m := by
  unfold H.owning
  simp only [forget_bind, forget_onUnwind, hd, Audit.onUnwind_pure, forget_pure, pure_bind, bind_pure]

theorem forget_dropSocket (fd : Nat) : H.erase (dropSocket fd) = Socket.close fd := by
  unfold dropSocket
  rw [forget_bind, forget_lift]
  conv => rhs; rw [← bind_pure (Socket.close fd)]
  rfl

theorem forget_socketOpen (rt : Rt) (path : Bytes) (uid gid mode : Nat) :
    H.erase (socketOpen rt path uid gid mode) = Socket.open' rt path uid gid mode := by
  unfold socketOpen Socket.open'
  simp only [forget_bind, forget_lift, forget_ite, forget_pure]
  congr 1; funext a; congr 1; congr 1; funext b; congr 1; congr 1; funext old; congr 1; funext r
  cases r with
  | bound fd => simp only [forget_bind, forget_owning _ _ (forget_closeListener fd), dropListener, forget_lift, forget_pure]
  | failed => simp
  | failLeft => simp

theorem forget_localPairPrompt (p : Pair) (spec : TemplateSpec) :
    H.erase (localPairPrompt p spec) = p.localPairPrompt spec := by
  unfold localPairPrompt Pair.localPairPrompt printPrompt Pair.ttyPrompt
  simp only [forget_bind, forget_lift]
  congr 1; funext t
  cases p.env.userInfo.tty with
  | none => simp
  | some path =>
    simp only [forget_bind, forget_ite, forget_lift, bind_assoc, forget_owning _ _ forget_closeTty, forget_pure]
    congr 1; funext b
    cases b <;> simp

theorem forget_remotePairConnect (rt : Rt) (p : Pair) :
    H.erase (remotePairConnect rt p) = p.remotePairConnect rt := by
  unfold remotePairConnect Pair.remotePairConnect
  simp only [forget_bind, forget_lift, forget_socketOpen]
  congr 1; funext mode; congr 1; funext r
  cases r <;> rfl

theorem forget_open (rt : Rt) (env : IoEnv) : H.erase (Handles.open rt env) = Pair.open rt env := by
  unfold Handles.open Pair.open
  simp only [forget_ite, forget_bind, forget_pure, forget_lift, forget_localPairPrompt, forget_remotePairConnect]
  congr 1; funext e; congr 1; congr 1; congr 1; funext _; congr 1; funext r
  cases r with
  | error e => rfl
  | ok fd =>
    simp only [forget_onUnwind, forget_bind, forget_lift, forget_dropSocket]
    congr 1; congr 1; funext r
    cases r <;> simp [forget_dropSocket]

theorem forget_step (rt : Rt) (c : SudoPair.Core.Call) (st : State) :
    H.erase (Core.step rt c st) = SudoPair.Core.step rt c st := by
  cases c with
  | «open» a =>
    show H.erase (Core.open rt a st) = SudoPair.Core.open rt a st
    unfold Core.open SudoPair.Core.open
    simp only [forget_bind, forget_lift]
    congr 1; funext r
    rcases r with _ | _ | env
    · rfl
    · rfl
    · simp only [forget_bind, forget_catchUnwind]
      have hm : ∀ e, H.erase (Core.makePlugin rt a.hasPrintf e) = SudoPair.Core.makePlugin rt a.hasPrintf e := by
        intro e
        unfold Core.makePlugin SudoPair.Core.makePlugin
        simp only [forget_ite, forget_pure, forget_bind, forget_open]
        congr 1; congr 1; funext r
        cases r <;> simp
      rw [hm]
      congr 1; funext r
      rcases r with _ | _ | p
      · rfl
      · rfl
      · cases st.plugin with
        | none => rfl
        | some q =>
          simp only [forget_bind, forget_pure, drop, Pair.drop]
          cases p.socket <;> simp [forget_dropSocket]
  | close =>
    show H.erase (do let st ← Core.close st; pure (0, st)) = (do let st ← SudoPair.Core.close st; pure (0, st))
    unfold Core.close SudoPair.Core.close
    cases st.plugin with
    | none => simp
    | some p =>
      simp only [forget_bind, forget_pure, close, Pair.close]
      cases p.socket <;> simp [forget_dropSocket]
  | showVersion => exact forget_lift _
  | log f b => exact forget_lift _
  | changeWinsize l c => exact forget_lift _

theorem forget_run (rt : Rt) (cs : List SudoPair.Core.Call) (st : State) :
    H.erase (Core.run rt cs st) = SudoPair.Core.run rt cs st := by
  induction cs generalizing st with
  | nil => rfl
  | cons c cs ih =>
    unfold Core.run SudoPair.Core.run
    rw [forget_bind, forget_step]
    congr 1; funext ⟨r, st'⟩
    simp [ih]

/-! ### The open descriptors of a run -/

variable {n : Nat} {l l' : List Handle}

@[simp] theorem play_nil : play n l [] = some l := rfl

theorem play_append (t u : List Step) : play n l (t ++ u) = (play n l t).bind (play n · u) := by
  induction t generalizing l with
  | nil => rfl
  | cons x t ih =>
    show (after n l x).bind (play n · (t ++ u)) = ((after n l x).bind (play n · t)).bind (play n · u)
    cases after n l x with
    | none => rfl
    | some l' => exact ih

theorem play_one (x : Step) : play n l [x] = after n l x := by
  show (after n l x).bind (play n · []) = _
  cases after n l x <;> rfl

/-- From `l` open descriptors, every run uses them correctly; `Q` describes those left by a normal end, `R` those left
by a panic. -/
def Safe (n : Nat) (l : List Handle) (m : H α) (Q : α → List Handle → Prop) (R : List Handle → Prop) : Prop :=
  ∀ s, match m s with
    | (.ok a, t, _)   => ∃ l', play n l t = some l' ∧ Q a l'
    | (.panic, t, _)  => ∃ l', play n l t = some l' ∧ R l'
    | (.killed, t, _) => ∃ l', play n l t = some l'

variable {Q Q' : α → List Handle → Prop} {R R' : List Handle → Prop}

theorem safe_mono {m : H α} (h : Safe n l m Q R) (hQ : ∀ a l, Q a l → Q' a l) (hR : ∀ l, R l → R' l) :
    Safe n l m Q' R' := by
  intro s
  have := h s
  rcases hm : m s with ⟨a | _ | _, t, s'⟩ <;> rw [hm] at this <;> simp only at this ⊢
  · obtain ⟨l', h1, h2⟩ := this; exact ⟨l', h1, hQ _ _ h2⟩
  · obtain ⟨l', h1, h2⟩ := this; exact ⟨l', h1, hR _ h2⟩
  · exact this

theorem safe_pure {a : α} (h : Q a l) : Safe n l (pure a : H α) Q R := fun _ => ⟨l, rfl, h⟩

theorem safe_panic (h : R l) : Safe n l (H.lift (M.panic : M α)) Q R := fun _ => ⟨l, rfl, h⟩

theorem safe_bind {m : H α} {f : α → H β} {Q : β → List Handle → Prop}
    (h : Safe n l m (fun a l' => Safe n l' (f a) Q R) R) : Safe n l (m >>= f) Q R := by
  intro s
  have := h s
  rw [H.bind_def]
  rcases hm : m s with ⟨a | _ | _, t, s'⟩ <;> rw [hm] at this <;> simp only at this ⊢
  · obtain ⟨l', h1, h2⟩ := this
    have h3 := h2 s'
    rcases hf : f a s' with ⟨b | _ | _, u, s''⟩ <;> rw [hf] at h3 <;> simp only at h3 ⊢ <;>
      rw [play_append, h1] <;> exact h3
  · exact this
  · exact this

theorem safe_ite {c : Prop} [Decidable c] {m m' : H α} (h : Safe n l m Q R) (h' : Safe n l m' Q R) :
    Safe n l (if c then m else m') Q R := by split <;> assumption

theorem safe_catchUnwind {m : H α} {Q : Option α → List Handle → Prop}
    (h : Safe n l m (fun a l' => Q (some a) l') (fun l' => Q none l')) : Safe n l (H.catchUnwind m) Q R := by
  intro s
  have := h s
  unfold H.catchUnwind
  rcases hm : m s with ⟨a | _ | _, t, s'⟩ <;> rw [hm] at this <;> simp only at this ⊢ <;> exact this

theorem safe_onUnwind {m : H α} {c : H Unit}
    (h : Safe n l m Q (fun l' => Safe n l' c (fun _ => R) R)) : Safe n l (H.onUnwind m c) Q R := by
  intro s
  have := h s
  unfold H.onUnwind
  rcases hm : m s with ⟨a | _ | _, t, s'⟩ <;> rw [hm] at this <;> simp only at this ⊢
  · exact this
  · obtain ⟨l', h1, h2⟩ := this
    have h3 := h2 s'
    rcases hc : c s' with ⟨b | _ | _, u, s''⟩ <;> rw [hc] at h3 <;> simp only at h3 ⊢ <;>
      rw [play_append, h1] <;> exact h3
  · exact this

theorem safe_owning {m : H α} {c : H Unit}
    (h : Safe n l m (fun a l' => Safe n l' c (fun _ => Q a) R) (fun l' => Safe n l' c (fun _ => R) R)) :
    Safe n l (H.owning m c) Q R := by
  unfold H.owning
  refine safe_bind (safe_onUnwind (safe_mono h ?_ (fun _ h => h)))
  intro a l' ha
  exact safe_bind (safe_mono ha (fun _ _ h => safe_pure h) (fun _ h => h))

theorem safe_closing {x : Step} (h : after n l x = some l') {Q : Unit → List Handle → Prop} (hq : Q () l') :
    Safe n l (H.closing x) Q R := fun _ => ⟨l', by rw [play_one]; exact h, hq⟩

theorem safe_sys {c : Sys} {Q : Resp c → List Handle → Prop}
    (h : ∀ r, ∃ l', after n l (.sys ⟨c, r⟩) = some l' ∧ Q r l') : Safe n l (H.lift (M.sys c)) Q R := by
  intro s
  cases s with
  | nil => exact ⟨l, rfl⟩
  | cons a s =>
    obtain ⟨l', h1, h2⟩ := h (a c)
    exact ⟨l', by show play n l [_] = _; rw [play_one]; exact h1, h2⟩

theorem lift_bind (m : M α) (f : α → M β) : H.lift (m >>= f) = H.lift m >>= fun a => H.lift (f a) := by
  funext s
  rw [H.bind_def]
  simp only [H.lift]
  rw [M.bind_def]
  rcases m s with ⟨a | _ | _, t, s'⟩ <;> simp

/-- An interaction that leaves the open descriptors as they are. -/
def Keeps (n : Nat) (l : List Handle) (e : Ev) : Prop := after n l (.sys e) = some l

theorem play_keeps {h : Hist} (hk : ∀ e ∈ h, Keeps n l e) : play n l (h.map .sys) = some l := by
  induction h with
  | nil => rfl
  | cons e h ih =>
    show (after n l (.sys e)).bind (play n · (h.map .sys)) = _
    rw [hk e (by simp)]
    exact ih fun e' he' => hk e' (by simp [he'])

/-- Code all of whose interactions leave the open descriptors as they are. -/
theorem safe_keeps {m : M α} (hm : AllEv (Keeps n l) m) (hQ : ∀ a, Q a l) (hR : R l) : Safe n l (H.lift m) Q R := by
  intro s
  have h1 := play_keeps (hm s)
  unfold H.lift
  rcases h : m s with ⟨a | _ | _, t, s'⟩ <;> rw [h] at h1 <;> simp only at h1 ⊢
  · exact ⟨l, h1, hQ a⟩
  · exact ⟨l, h1, hR⟩
  · exact ⟨l, h1⟩

end SudoPair.Handles
