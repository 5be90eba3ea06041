import Verif.Props.Depends
import Verif.Props.Audit
/-
C74 for the log: what the records depend on.
-/
namespace SudoPair
open Spec Audit

variable {α β γ δ : Type}

/-- Two pieces of code that log do the same and record the same, with results related by `R`. -/
def LMirrors (R : α → β → Prop) (m : L α) (m' : L β) : Prop :=
  ∀ s, (m s).2 = (m' s).2 ∧
    match (m s).1, (m' s).1 with
    | .ok a, .ok b => R a b
    | .panic, .panic => True
    | .killed, .killed => True
    | _, _ => False

theorem LMirrors.pure {R : α → β → Prop} {a : α} {b : β} (h : R a b) : LMirrors R (Pure.pure a : L α) (Pure.pure b : L β) :=
  fun _ => ⟨rfl, h⟩

theorem LMirrors.refl {R : α → α → Prop} (h : ∀ a, R a a) (m : L α) : LMirrors R m m := by
  intro s
  refine ⟨rfl, ?_⟩
  cases (m s).1 <;> simp [h]

theorem LMirrors.lift {R : α → β → Prop} {m : M α} {m' : M β} (h : Mirrors R m m') : LMirrors R (L.lift m) (L.lift m') := by
  intro s
  obtain ⟨h1, h2⟩ := h s
  unfold L.lift
  rcases hr : m s with ⟨o, h, s1⟩
  rcases hr' : m' s with ⟨o', h', s1'⟩
  rw [hr, hr'] at h1 h2
  simp only [Prod.mk.injEq] at h1 h2 ⊢
  obtain ⟨rfl, rfl⟩ := h1
  exact ⟨⟨rfl, rfl⟩, h2⟩

theorem LMirrors.bind {R : α → β → Prop} {Q : γ → δ → Prop} {m : L α} {m' : L β} {f : α → L γ} {f' : β → L δ}
    (hm : LMirrors R m m') (hf : ∀ a b, R a b → LMirrors Q (f a) (f' b)) : LMirrors Q (m >>= f) (m' >>= f') := by
  intro s
  obtain ⟨h1, h2⟩ := hm s
  show (L.bind m f s).2 = (L.bind m' f' s).2 ∧ match (L.bind m f s).1, (L.bind m' f' s).1 with
    | .ok a, .ok b => Q a b
    | .panic, .panic => True
    | .killed, .killed => True
    | _, _ => False
  unfold L.bind
  rcases hr : m s with ⟨a | _ | _, h, s1⟩ <;> rcases hr' : m' s with ⟨b | _ | _, h', s1'⟩ <;> rw [hr, hr'] at h1 h2 <;>
    simp only [Prod.mk.injEq] at h1 h2 ⊢ <;> obtain ⟨rfl, rfl⟩ := h1 <;> try simp
  obtain ⟨h3, h4⟩ := hf a b h2 s1
  exact ⟨Prod.ext_iff.1 h3, h4⟩

theorem LMirrors.catchUnwind {R : α → β → Prop} {m : L α} {m' : L β} (hm : LMirrors R m m') :
    LMirrors (Option.Rel R) (L.catchUnwind m) (L.catchUnwind m') := by
  intro s
  obtain ⟨h1, h2⟩ := hm s
  unfold L.catchUnwind
  rcases hr : m s with ⟨a | _ | _, h, s1⟩ <;> rcases hr' : m' s with ⟨b | _ | _, h', s1'⟩ <;> rw [hr, hr'] at h1 h2 <;>
    simp only [Prod.mk.injEq] at h1 h2 ⊢ <;> obtain ⟨rfl, rfl⟩ := h1 <;> simp
  exact h2

theorem LMirrors.onUnwind {R : α → β → Prop} {m : L α} {m' : L β} (hm : LMirrors R m m') (c : L Unit) :
    LMirrors R (L.onUnwind m c) (L.onUnwind m' c) := by
  intro s
  obtain ⟨h1, h2⟩ := hm s
  unfold L.onUnwind
  rcases hr : m s with ⟨a | _ | _, h, s1⟩ <;> rcases hr' : m' s with ⟨b | _ | _, h', s1'⟩ <;> rw [hr, hr'] at h1 h2 <;>
    simp only [Prod.mk.injEq] at h1 h2 ⊢ <;> obtain ⟨rfl, rfl⟩ := h1 <;> try simp
  · exact h2
  · rcases c s1 with ⟨_ | _ | _, h3, s3⟩ <;> simp

variable {rt : Rt}

theorem say_same {p p' : Pair} (h : PairSame rt.debug p p') (l : Level) (m : Bytes) (kv : List (Bytes × Audit.Value)) :
    Audit.say p l m kv = Audit.say p' l m kv := by
  have : ∀ p : Pair, Audit.say p l m kv = Audit.say (p.essence rt.debug) l m kv := fun _ => rfl
  rw [this, this p', h]

theorem auditExempt_same {p p' : Pair} (h : PairSame rt.debug p p') :
    Audit.isExempt rt.debug p = Audit.isExempt rt.debug p' := by
  have : ∀ p : Pair, Audit.isExempt rt.debug p = Audit.isExempt rt.debug (p.essence rt.debug) := by
    intro p; cases h : rt.debug <;> rfl
  rw [this, this p', h]

theorem exiting_same {p p' : Pair} (h : PairSame rt.debug p p') : exiting p = exiting p' := by
  unfold exiting; rw [say_same h]

theorem auditOpen_same (rt : Rt) {e e' : IoEnv} (h : EnvSame rt.debug e e') :
    LMirrors (fun x y => match x, y with | .ok p, .ok p' => PairSame rt.debug p p' | .error a, .error b => a = b | _, _ => False)
      (Audit.open rt e) (Audit.open rt e') := by
  have hp : PairSame rt.debug { env := e, options := .ofMap e.pluginOptions, socket := none }
      { env := e', options := .ofMap e'.pluginOptions, socket := none } := by
    obtain ⟨h1, h2⟩ := h
    unfold PairSame Pair.essence
    simp only [h1, h2]
  unfold Audit.open
  generalize ({ env := e, options := .ofMap e.pluginOptions, socket := none } : Pair) = p at hp
  generalize ({ env := e', options := .ofMap e'.pluginOptions, socket := none } : Pair) = p' at hp
  simp only
  have eo : p.options = p'.options := by
    have : ∀ p : Pair, p.options = (p.essence rt.debug).options := fun _ => rfl
    rw [this, this p', hp]
  rw [say_same hp, eo]
  refine (LMirrors.refl (R := Eq) (fun _ => rfl) _).bind ?_
  rintro _ _ -
  refine (LMirrors.refl (R := Eq) (fun _ => rfl) _).bind ?_
  rintro _ _ -
  have e1 : p.toUserAndGroup = p'.toUserAndGroup := by
    have : ∀ p : Pair, p.toUserAndGroup = (p.essence rt.debug).toUserAndGroup := fun _ => rfl
    rw [this, this p', hp]
  have e2 : p.templateSpec = p'.templateSpec := by
    have : ∀ p : Pair, p.templateSpec = (p.essence rt.debug).templateSpec := fun _ => rfl
    rw [this, this p', hp]
  have e3 : Audit.localPairPrompt p = Audit.localPairPrompt p' := by
    have : ∀ p : Pair, Audit.localPairPrompt p = Audit.localPairPrompt (p.essence rt.debug) := fun _ => rfl
    rw [this, this p', hp]
  have e4 : Audit.remotePairConnect rt p = Audit.remotePairConnect rt p' := by
    have : ∀ p : Pair, Audit.remotePairConnect rt p = Audit.remotePairConnect rt (p.essence rt.debug) := fun _ => rfl
    rw [this, this p', hp]
  have e5 : Audit.remotePairPrompt p = Audit.remotePairPrompt p' := by
    have : ∀ p : Pair, Audit.remotePairPrompt p = Audit.remotePairPrompt (p.essence rt.debug) := fun _ => rfl
    rw [this, this p', hp]
  have e6 : p.env.settings.runasUser = p'.env.settings.runasUser := by
    have : ∀ p : Pair, p.env.settings.runasUser = (p.essence rt.debug).env.settings.runasUser := fun _ => rfl
    rw [this, this p', hp]
  have e7 : p.env.settings.runasGroup = p'.env.settings.runasGroup := by
    have : ∀ p : Pair, p.env.settings.runasGroup = (p.essence rt.debug).env.settings.runasGroup := fun _ => rfl
    rw [this, this p', hp]
  unfold Audit.openPair
  simp only [auditExempt_same hp, exiting_same hp, say_same hp, e1, e2, e3, e4, e5, e6, e7]
  refine (LMirrors.refl (R := Eq) (fun _ => rfl) _).bind ?_
  rintro x _ rfl
  split
  · refine (LMirrors.refl (R := Eq) (fun _ => rfl) _).bind ?_
    rintro _ _ -
    exact .pure hp
  refine (LMirrors.refl (R := Eq) (fun _ => rfl) _).bind ?_
  rintro _ _ -
  split
  · refine (LMirrors.refl (R := Eq) (fun _ => rfl) _).bind ?_
    rintro _ _ -
    refine (LMirrors.refl (R := Eq) (fun _ => rfl) _).bind ?_
    rintro _ _ -
    exact .pure rfl
  refine (LMirrors.refl (R := Eq) (fun _ => rfl) _).bind ?_
  rintro _ _ -
  refine (LMirrors.refl (R := Eq) (fun _ => rfl) _).bind ?_
  rintro x _ rfl
  cases x with
  | error e =>
    refine (LMirrors.refl (R := Eq) (fun _ => rfl) _).bind ?_
    rintro _ _ -
    exact .pure rfl
  | ok fd =>
    refine .onUnwind ?_ _
    refine (LMirrors.refl (R := Eq) (fun _ => rfl) _).bind ?_
    rintro x _ rfl
    cases x with
    | ok u =>
      refine (LMirrors.refl (R := Eq) (fun _ => rfl) _).bind ?_
      rintro _ _ -
      refine .pure ?_
      show Pair.essence rt.debug _ = Pair.essence rt.debug _
      have : ∀ p : Pair, ({ p with socket := some fd } : Pair).essence rt.debug = { p.essence rt.debug with socket := some fd } := fun _ => rfl
      rw [this, this p', show p.essence rt.debug = p'.essence rt.debug from hp]
    | error e =>
      refine (LMirrors.refl (R := Eq) (fun _ => rfl) _).bind ?_
      rintro _ _ -
      refine (LMirrors.refl (R := Eq) (fun _ => rfl) _).bind ?_
      rintro _ _ -
      exact .pure rfl

theorem auditPlugin_same (rt : Rt) (b : Bool) {e e' : IoEnv} (h : EnvSame rt.debug e e') :
    LMirrors (fun x y => match x, y with | .ok p, .ok p' => PairSame rt.debug p p' | .error x, .error y => x = y | _, _ => False)
      (Audit.Core.makePlugin rt b e) (Audit.Core.makePlugin rt b e') := by
  unfold Audit.Core.makePlugin
  have hc : e.commandInfo.command = e'.commandInfo.command := by
    have : ∀ e : IoEnv, e.commandInfo.command = (e.essence rt.debug).commandInfo.command := fun _ => rfl
    rw [this, this e', h.1]
  rw [hc]
  split
  · exact .pure rfl
  refine (auditOpen_same rt h).bind ?_
  intro x y hxy
  rcases x with e | e <;> rcases y with e' | e' <;> simp only at hxy
  · subst hxy
    refine (LMirrors.refl (R := Eq) (fun _ => rfl) _).bind ?_
    rintro _ _ -
    exact .pure rfl
  · exact .pure hxy

theorem auditCoreOpen_same (rt : Rt) {a a' : OpenArgs} (h : SameInput rt.debug a a') {st st' : State} (hs : StSame rt.debug st st') :
    LMirrors (fun x y => x.1 = y.1 ∧ StSame rt.debug x.2 y.2) (Audit.Core.open rt a st) (Audit.Core.open rt a' st') := by
  unfold Audit.Core.open
  refine (LMirrors.lift (makeEnv_same h).catchUnwind).bind ?_
  rintro _ _ (hxy | _)
  · rename_i x y
    rcases x with e | e <;> rcases y with e' | e' <;> simp only at hxy
    · exact .pure ⟨hxy, hs⟩
    · have he : EnvSame rt.debug (st.env.getD e) (st'.env.getD e') := by
        have h1 := hs.1
        generalize st.env = x at h1
        generalize st'.env = y at h1
        rcases h1 with h1 | _
        · exact h1
        · exact hxy
      simp only [h.printf]
      refine (auditPlugin_same rt _ he).catchUnwind.bind ?_
      have hs1 : StSame rt.debug { st with env := some (st.env.getD e) } { st' with env := some (st'.env.getD e') } :=
        ⟨.some he, hs.2⟩
      rintro _ _ (hxy | _)
      · rename_i x y
        rcases x with e | p <;> rcases y with e' | p' <;> simp only at hxy
        · exact .pure ⟨hxy, hs1⟩
        · simp only
          generalize hq : st.plugin = q
          generalize hq' : st'.plugin = q'
          have hqq := hs.2
          rw [hq, hq'] at hqq
          rcases hqq with h1 | _
          · have hd : Audit.drop p = Audit.drop p' := by
              unfold Audit.drop Pair.drop; rw [pairSame_socket hxy, exiting_same hxy]
            simp only [hd]
            refine (LMirrors.refl (R := Eq) (fun _ => rfl) _).bind ?_
            rintro _ _ -
            exact .pure ⟨rfl, hs1.1, .some h1⟩
          · exact .pure ⟨rfl, hs1.1, .some hxy⟩
      · exact .pure ⟨rfl, hs1⟩
  · exact .pure ⟨rfl, hs⟩

theorem auditClose_same {st st' : State} (hs : StSame rt.debug st st') : Audit.Core.close st = Audit.Core.close st' := by
  unfold Audit.Core.close
  have h1 := hs.2
  generalize st.plugin = x at h1
  generalize st'.plugin = y at h1
  rcases h1 with h1 | _
  · rename_i p p'
    have hd : Audit.close p = Audit.close p' := by
      unfold Audit.close; simp only [pairSame_socket h1, say_same h1, exiting_same h1]
    simp only [hd]
  · rfl

theorem auditLogOutput_same {p p' : Pair} (h : PairSame rt.debug p p') (buf : Bytes) :
    Audit.logOutput p buf = Audit.logOutput p' buf := by
  have : ∀ p : Pair, Audit.logOutput p buf = Audit.logOutput (p.essence rt.debug) buf := fun _ => rfl
  rw [this, this p', h]

theorem auditLog_same (rt : Rt) (f : Facility) (buf : Bytes) {st st' : State} (hs : StSame rt.debug st st') :
    Audit.Core.log rt f buf st = Audit.Core.log rt f buf st' := by
  unfold Audit.Core.log
  obtain ⟨h1, h2⟩ := hs
  generalize st.env = x at h1
  generalize st'.env = y at h1
  generalize st.plugin = p at h2
  generalize st'.plugin = p' at h2
  rcases h1 with h1 | _
  · rename_i e e'
    rcases h2 with h2 | _
    · rename_i p p'
      have key : (if !SudoPair.Core.hint e.commandInfo f then pure SudoPair.Core.LOG_OK
            else Audit.handler rt p buf f >>= fun res => L.lift (SudoPair.Core.finish e res) : L Int) =
          (if !SudoPair.Core.hint e'.commandInfo f then pure SudoPair.Core.LOG_OK
            else Audit.handler rt p' buf f >>= fun res => L.lift (SudoPair.Core.finish e' res)) := by
        by_cases hf : f = .ttyin
        · subst hf
          have : ∀ (e : IoEnv) (p : Pair), (Audit.handler rt p buf .ttyin >>= fun res => L.lift (SudoPair.Core.finish e res) : L Int) =
            pure SudoPair.Core.LOG_OK := fun _ _ => rfl
          rw [this, this]
          split <;> split <;> rfl
        · have hh : SudoPair.Core.hint e.commandInfo f = SudoPair.Core.hint e'.commandInfo f := by
            have : ∀ e : IoEnv, SudoPair.Core.hint e.commandInfo f = SudoPair.Core.hint (e.essence rt.debug).commandInfo f := by
              intro e; cases f <;> first | rfl | exact absurd rfl hf
            rw [this, this e', h1.1]
          have hp : Audit.handler rt p buf f = Audit.handler rt p' buf f := by
            cases f with
            | ttyin => rfl
            | stdin =>
              show Audit.logStdin rt p = Audit.logStdin rt p'
              unfold Audit.logStdin
              rw [auditExempt_same h2]
            | _ => exact auditLogOutput_same h2 buf
          rw [hh, hp, finish_same h1]
      exact congrArg (fun m : L Int => L.catchUnwind m >>= fun r => pure (r.getD SudoPair.Core.LOG_DENY)) key
    · rfl
  · rcases h2 with h2 | _ <;> rfl

theorem auditWinsize_same (l c : Nat) {st st' : State} (hs : StSame rt.debug st st') :
    Audit.Core.changeWinsize l c st = Audit.Core.changeWinsize l c st' := by
  unfold Audit.Core.changeWinsize
  obtain ⟨h1, h2⟩ := hs
  generalize st.env = x at h1
  generalize st'.env = y at h1
  generalize st.plugin = p at h2
  generalize st'.plugin = p' at h2
  rcases h1 with h1 | _
  · rename_i e e'
    rcases h2 with h2 | _
    · rename_i p p'
      have key : (Audit.logOutput p (Pair.winsizeSeq l c) >>= fun res => L.lift (SudoPair.Core.finish e res) : L Int) =
          Audit.logOutput p' (Pair.winsizeSeq l c) >>= fun res => L.lift (SudoPair.Core.finish e' res) := by
        rw [auditLogOutput_same h2, finish_same h1]
      exact congrArg (fun m : L Int => L.catchUnwind m >>= fun r => pure (r.getD SudoPair.Core.LOG_DENY)) key
    · rfl
  · rcases h2 with h2 | _ <;> rfl

theorem auditStep_same (rt : Rt) {c c' : SudoPair.Core.Call} (h : SameCall rt.debug c c') {st st' : State}
    (hs : StSame rt.debug st st') :
    LMirrors (fun x y => x.1 = y.1 ∧ StSame rt.debug x.2 y.2) (Audit.Core.step rt c st) (Audit.Core.step rt c' st') := by
  by_cases ho : ∃ a a', c = .open a ∧ c' = .open a'
  · obtain ⟨a, a', rfl, rfl⟩ := ho
    exact auditCoreOpen_same rt h hs
  · have hc : c = c' := by
      unfold SameCall at h
      split at h
      · exact absurd ⟨_, _, rfl, rfl⟩ ho
      · exact h
    subst hc
    cases c with
    | «open» a => exact absurd ⟨a, a, rfl, rfl⟩ ho
    | close =>
      simp only [Audit.Core.step, auditClose_same hs]
      refine LMirrors.bind (R := fun x y => x = ⟨none, none⟩ ∧ y = ⟨none, none⟩) ?_ ?_
      · unfold Audit.Core.close
        cases st'.plugin with
        | none => exact .pure ⟨rfl, rfl⟩
        | some p =>
          refine (LMirrors.refl (R := Eq) (fun _ => rfl) (Audit.close p)).bind ?_
          rintro _ _ -
          exact .pure ⟨rfl, rfl⟩
      · rintro _ _ ⟨rfl, rfl⟩
        exact .pure ⟨rfl, .none, .none⟩
    | showVersion =>
      simp only [Audit.Core.step, showVersion_same hs]
      refine (LMirrors.refl (R := Eq) (fun _ => rfl) _).bind ?_
      rintro _ _ rfl
      exact .pure ⟨rfl, hs⟩
    | log f buf =>
      simp only [Audit.Core.step, auditLog_same rt f buf hs]
      refine (LMirrors.refl (R := Eq) (fun _ => rfl) _).bind ?_
      rintro _ _ rfl
      exact .pure ⟨rfl, hs⟩
    | changeWinsize l cc =>
      simp only [Audit.Core.step, auditWinsize_same l cc hs]
      refine (LMirrors.refl (R := Eq) (fun _ => rfl) _).bind ?_
      rintro _ _ rfl
      exact .pure ⟨rfl, hs⟩

theorem auditRun_same (rt : Rt) {cs cs' : List SudoPair.Core.Call} (h : SameCalls rt.debug cs cs') {st st' : State}
    (hs : StSame rt.debug st st') :
    LMirrors (fun x y => x.1 = y.1) (Audit.Core.run rt cs st) (Audit.Core.run rt cs' st') := by
  induction h generalizing st st' with
  | nil => exact .pure rfl
  | cons h1 _ ih =>
    unfold Audit.Core.run
    refine (auditStep_same rt h1 hs).bind ?_
    rintro ⟨r, s1⟩ ⟨r', s1'⟩ ⟨h2, h3⟩
    simp only at h2 h3 ⊢
    refine (ih h3).bind ?_
    rintro ⟨rs, s2⟩ ⟨rs', s2'⟩ h4
    simp only at h4 ⊢
    exact .pure (by rw [h2, h4])

/-- C74: the log is part of it.  Two processes whose calls agree on the listed keys, and that get the same answers from
the operating system, produce the same trace of system calls and log records of all levels, record by record and in the
same order. -/
theorem C74_log (rt : Rt) {cs cs' : List SudoPair.Core.Call} (h : SameCalls rt.debug cs cs') (s : Sched) :
    (Audit.Core.run rt cs SudoPair.Core.init s).2.1 = (Audit.Core.run rt cs' SudoPair.Core.init s).2.1 ∧
      endOf (Audit.Core.run rt cs SudoPair.Core.init s).1 = endOf (Audit.Core.run rt cs' SudoPair.Core.init s).1 := by
  obtain ⟨h1, h2⟩ := auditRun_same rt h (st := SudoPair.Core.init) (st' := SudoPair.Core.init) ⟨.none, .none⟩ s
  refine ⟨by rw [h1], ?_⟩
  rcases h3 : (Audit.Core.run rt cs SudoPair.Core.init s).1 with ⟨rs, st⟩ | _ | _ <;>
    rcases h4 : (Audit.Core.run rt cs' SudoPair.Core.init s).1 with ⟨rs', st'⟩ | _ | _ <;> rw [h3, h4] at h2 <;>
    simp only [endOf] at h2 ⊢
  exact congrArg _ h2

/-- A whole session with quite different arguments has the same records, and there are some. -/
example : (Audit.Core.run sampleRt [.open sampleArgs, .log .stdout (b! "hi"), .close] SudoPair.Core.init
      (List.replicate 80 (coop 121))).2.1 =
    (Audit.Core.run sampleRt [.open reworded, .log .stdout (b! "hi"), .close] SudoPair.Core.init
      (List.replicate 80 (coop 121))).2.1 ∧
    10 < ((Audit.Core.run sampleRt [.open reworded, .log .stdout (b! "hi"), .close] SudoPair.Core.init
      (List.replicate 80 (coop 121))).2.1.filterMap (fun e => match e with | .note r => some r | _ => none)).length :=
  ⟨(C74_log sampleRt (cs := [.open sampleArgs, .log .stdout (b! "hi"), .close])
      (cs' := [.open reworded, .log .stdout (b! "hi"), .close])
      (.cons (reworded_alike _) (.cons rfl (.cons rfl .nil))) _).1, by decide +kernel⟩

end SudoPair
