import Verif.Spec.Drain
import Verif.Props.Audit
/-
C81: where the log records go, and that nothing depends on it.
-/
namespace SudoPair.Drain
open Audit Spec

theorem compiled_eq (max l : Level) : Level.compiled max l = Matters max l := by
  cases max <;> cases l <;> rfl

theorem send_eq (max : Level) (lg : Logger) (r : Record) : send max lg r = Posted lg.drain max [r] := by
  unfold send Posted
  rw [compiled_eq]
  cases h : Matters max r.level <;> cases lg.drain <;> simp [h]

theorem posted_append (d : Drain) (max : Level) (l l' : List Record) :
    Posted d max (l ++ l') = Posted d max l ++ Posted d max l' := by
  unfold Posted
  split <;> simp

theorem sendAll_eq (max : Level) (lg : Logger) (t : List Entry) :
    sendAll max lg t = Posted lg.drain max (records t) := by
  induction t with
  | nil => simp [sendAll, records, Posted]
  | cons e t ih =>
    cases e with
    | sys e => exact ih
    | note r =>
      show send max lg r ++ sendAll max lg t = Posted lg.drain max ([r] ++ records t)
      rw [posted_append, send_eq, ih]

theorem drain_sessionLogger (b : Build) (up : Bool) : (sessionLogger b up).drain = destined b up := by
  rcases b with ⟨⟨s, j⟩, m⟩
  cases s <;> cases j <;> cases m <;> cases up <;> rfl

/-- The most detailed level does not matter to the model without records. -/
theorem step_level (rt : Rt) (l : Level) (c : SudoPair.Core.Call) (st : SudoPair.State) :
    SudoPair.Core.step { rt with maxLevel := l } c st = SudoPair.Core.step rt c st := rfl

theorem run_level (rt : Rt) (l : Level) (cs : List SudoPair.Core.Call) (st : SudoPair.State) :
    SudoPair.Core.run { rt with maxLevel := l } cs st = SudoPair.Core.run rt cs st := by
  induction cs generalizing st with
  | nil => rfl
  | cons c cs ih =>
    unfold SudoPair.Core.run
    rw [step_level]
    congr 1; funext ⟨r, st'⟩
    simp only [ih]

/-- The outcome of a callback without the logger. -/
def bareStep : Out (Int × State) → Out (Int × SudoPair.State)
  | .ok (r, st) => .ok (r, st.core)
  | .panic => .panic
  | .killed => .killed

/-- The logger that a callback uses. -/
def using' (b : Build) (c : SudoPair.Core.Call) (up : Bool) (st : State) : Logger :=
  match c with
  | .open _ => sessionLogger b up
  | _ => st.logger.getD ⟨.discard, []⟩

/-- A callback is one of Model/Audit, of which the records are sent. -/
theorem step_audit (rt : Rt) (b : Build) (c : SudoPair.Core.Call) (up : Bool) (st : State) (s : Sched) {o h l s'}
    (hs : step rt b c up st s = (o, h, l, s')) : ∃ t, Audit.Core.step rt c st.core s = (bareStep o, t, s') ∧
      h = events t ∧ l = sendAll rt.maxLevel (using' b c up st) t ∧
      ∀ r st', o = .ok (r, st') → st'.logger = match st'.core.plugin with
        | none => none
        | some _ => if st.core.plugin.isSome then st.logger else some (using' b c up st) := by
  unfold step at hs
  rcases hr : Audit.Core.step rt c st.core s with ⟨o1, t, s1⟩
  rw [hr] at hs
  obtain ⟨rfl, rfl, rfl, rfl⟩ : _ = o ∧ _ = h ∧ _ = l ∧ _ = s' := by
    simpa only [Prod.mk.injEq] using hs
  refine ⟨t, ?_, rfl, rfl, ?_⟩
  · rcases o1 with ⟨r, core⟩ | _ | _ <;> rfl
  · intro r st' h
    rcases o1 with ⟨r1, core⟩ | _ | _
    · cases h; rfl
    · exact absurd h (by simp)
    · exact absurd h (by simp)

/-- Without a session, only `open` begins one. -/
theorem step_none {rt : Rt} {c : SudoPair.Core.Call} {st : SudoPair.State} {s : Sched} {r st' t s'}
    (h : Audit.Core.step rt c st s = (.ok (r, st'), t, s')) (hc : ∀ a, c ≠ .open a) (hn : st.plugin = none) :
    st'.plugin = none := by
  have same : ∀ {m : L Int} {o t}, LRuns (do let r ← m; pure (r, st) : L (Int × SudoPair.State)) o t →
      ∀ r st', o = .ok (r, st') → st' = st := by
    intro m o t hr r st' ho
    subst ho
    rcases hr.bind with ⟨a, t1, t2, _, h, _⟩ | ⟨h, _⟩ | ⟨h, _⟩
    · have := h.pure.1
      simp only [Out.ok.injEq, Prod.mk.injEq] at this
      exact this.2
    · exact absurd h (by simp)
    · exact absurd h (by simp)
  have hl := lruns_of h
  cases c with
  | «open» a => exact absurd rfl (hc a)
  | close =>
    rcases LRuns.bind (m := Audit.Core.close st) hl with ⟨a, t1, t2, h1, h, _⟩ | ⟨h, _⟩ | ⟨h, _⟩
    · have h2 := h.pure.1
      simp only [Out.ok.injEq, Prod.mk.injEq] at h2
      rw [h2.2]
      rcases coreClose_story h1 with ⟨_, h3, _⟩ | ⟨p, _, h3, _⟩
      · cases h3; rfl
      · rw [hn] at h3; exact absurd h3 (by simp)
    · exact absurd h (by simp)
    · exact absurd h (by simp)
  | showVersion => rw [same hl r st' rfl]; exact hn
  | log f b => rw [same hl r st' rfl]; exact hn
  | changeWinsize l c => rw [same hl r st' rfl]; exact hn

/-- Only `close` ends a session. -/
theorem step_some {rt : Rt} {c : SudoPair.Core.Call} {st : SudoPair.State} {s : Sched} {r st' t s'}
    (h : Audit.Core.step rt c st s = (.ok (r, st'), t, s')) (hc : c ≠ .close) (hn : st.plugin ≠ none) :
    st'.plugin ≠ none := by
  have hr := (lruns_of h).erase
  rw [Audit.erase_step] at hr
  by_cases hl : c.isLog ∨ c = .showVersion
  · rw [step_log_state hl hr]; exact hn
  cases c with
  | «open» a =>
    change Runs (SudoPair.Core.open rt a st) (.ok (r, st')) _ at hr
    generalize ho : Out.ok (r, st') = o at hr
    generalize events t = h' at hr
    cases coreOpen_runs hr <;>
      first
      | (simp at ho; done)
      | (simp only [Out.ok.injEq, Prod.mk.injEq] at ho; obtain ⟨rfl, rfl⟩ := ho; first | exact hn | simp)
  | close => exact absurd rfl hc
  | _ => exact absurd (by simp [SudoPair.Core.Call.isLog]) hl

/-- A session in progress has a logger with this drain. -/
def Has (d : Drain) (st : State) : Prop := st.core.plugin ≠ none → ∃ lg, st.logger = some lg ∧ lg.drain = d

theorem step_has {rt : Rt} {b : Build} {c : SudoPair.Core.Call} {up : Bool} {st : State} {s : Sched} {o h l s'} {d : Drain}
    (hs : step rt b c up st s = (o, h, l, s')) (hd : (∃ a, c = .open a) → destined b up = d) (hh : Has d st) :
    ∃ t, Audit.Core.step rt c st.core s = (bareStep o, t, s') ∧ h = events t ∧ l = Posted d rt.maxLevel (records t) ∧
      ∀ r st', o = .ok (r, st') → Has d st' := by
  obtain ⟨t, h1, h2, h3, h4⟩ := step_audit rt b c up st s hs
  have hopen : (∃ a, c = .open a) → (using' b c up st).drain = d := by
    intro ho
    rw [← hd ho]
    obtain ⟨a, rfl⟩ := ho
    exact drain_sessionLogger b up
  have hsome : (¬ ∃ a, c = .open a) → st.core.plugin ≠ none → (using' b c up st).drain = d := by
    intro hc hp
    obtain ⟨lg, h5, h6⟩ := hh hp
    have : using' b c up st = st.logger.getD ⟨.discard, []⟩ := by
      cases c <;> first | rfl | exact absurd ⟨_, rfl⟩ hc
    rw [this, h5]
    exact h6
  refine ⟨t, h1, h2, ?_, ?_⟩
  · rw [h3, sendAll_eq]
    by_cases hc : ∃ a, c = .open a
    · rw [hopen hc]
    · cases hr : records t with
      | nil => simp [Posted]
      | cons r rs =>
        obtain ⟨p, own, h5, _⟩ := C66_identity_later (lruns_of h1) (fun a h => hc ⟨a, h⟩) r
          (mem_records.1 (by rw [hr]; exact .head _))
        rw [hsome hc (by rw [h5]; simp)]
  · intro r st' ho hp
    have h5 := h4 r st' ho
    cases hp' : st'.core.plugin with
    | none => exact absurd hp' hp
    | some p =>
      rw [hp'] at h5
      simp only at h5
      cases hq : st.core.plugin with
      | some q =>
        rw [hq] at h5
        simp only [Option.isSome_some, if_true] at h5
        rw [h5]
        exact hh (by rw [hq]; simp)
      | none =>
        rw [hq] at h5
        simp only [Option.isSome_none, Bool.false_eq_true, if_false] at h5
        refine ⟨_, h5, ?_⟩
        by_cases hc : ∃ a, c = .open a
        · exact hopen hc
        · subst ho
          exact absurd (step_none h1 (fun a h => hc ⟨a, h⟩) hq) hp

theorem run_audit (rt : Rt) (b : Build) (cs : List (SudoPair.Core.Call × Bool)) (st : State) (s : Sched) {o h l s'}
    (hs : run rt b cs st s = (o, h, l, s')) :
    ∃ t, Audit.Core.run rt (cs.map (·.1)) st.core s = (bare o, t, s') ∧ h = events t ∧
      ∀ d, (∀ a up, (.open a, up) ∈ cs → destined b up = d) → Has d st → l = Posted d rt.maxLevel (records t) := by
  induction cs generalizing st s o h l s' with
  | nil =>
    obtain ⟨rfl, rfl, rfl, rfl⟩ : _ = o ∧ _ = h ∧ _ = l ∧ _ = s' := by
      simpa only [run, Prod.mk.injEq] using hs
    exact ⟨[], rfl, rfl, fun d _ _ => by simp [Posted, records]⟩
  | cons x cs ih =>
    rcases x with ⟨c, up⟩
    unfold run at hs
    rcases h1 : step rt b c up st s with ⟨o1, e1, l1, s1⟩
    obtain ⟨t1, h2, h3, _⟩ := step_audit rt b c up st s h1
    rw [h1] at hs
    have first : ∀ d, (∀ a up', (.open a, up') ∈ (c, up) :: cs → destined b up' = d) → Has d st →
        l1 = Posted d rt.maxLevel (records t1) ∧ ∀ r st', o1 = .ok (r, st') → Has d st' := by
      intro d hd hh
      obtain ⟨t', h4, _, h5, h6⟩ := step_has h1 (fun ⟨a, h⟩ => hd a up (by rw [h]; exact .head _)) hh
      rw [h2] at h4
      simp only [Prod.mk.injEq, true_and, and_true] at h4
      rw [h4]
      exact ⟨h5, h6⟩
    have hrun : ∀ o t, Audit.Core.step rt c st.core s = (o, t, s1) → Audit.Core.run rt (((c, up) :: cs).map (·.1)) st.core s =
        match o with
        | .ok (r, st') => match Audit.Core.run rt (cs.map (·.1)) st' s1 with
          | (.ok (rs, st''), t', s'') => (.ok (r :: rs, st''), t ++ t', s'')
          | (.panic, t', s'') => (.panic, t ++ t', s'')
          | (.killed, t', s'') => (.killed, t ++ t', s'')
        | .panic => (.panic, t, s1)
        | .killed => (.killed, t, s1) := by
      intro o t h
      show (do let (r, st') ← Audit.Core.step rt c st.core; let (rs, st'') ← Audit.Core.run rt (cs.map (·.1)) st'; pure (r :: rs, st'') : L _) s = _
      simp only [L.bind_def, h]
      rcases o with ⟨r, st'⟩ | _ | _
      · simp only
        rcases hq : Audit.Core.run rt (cs.map (·.1)) st' s1 with ⟨⟨rs, st''⟩ | _ | _, t', s''⟩ <;>
          simp [Pure.pure, L.pure, hq]
      · rfl
      · rfl
    rcases o1 with ⟨r, st1⟩ | _ | _
    · simp only at hs
      rcases h4 : run rt b cs st1 s1 with ⟨o2, e2, l2, s2⟩
      obtain ⟨t2, h5, h6, h7⟩ := ih st1 s1 h4
      rw [h4] at hs
      refine ⟨t1 ++ t2, ?_, ?_, ?_⟩
      · rw [hrun _ _ h2]
        simp only [bareStep, h5]
        rcases o2 with ⟨rs, st2⟩ | _ | _ <;> simp only [Prod.mk.injEq] at hs <;> obtain ⟨rfl, _, _, rfl⟩ := hs <;> rfl
      · have : h = e1 ++ e2 := by
          rcases o2 with ⟨rs, st2⟩ | _ | _ <;> simp only [Prod.mk.injEq] at hs <;> exact hs.2.1.symm
        rw [this, h3, h6]
        exact (List.filterMap_append ..).symm
      · intro d hd hh
        have : l = l1 ++ l2 := by
          rcases o2 with ⟨rs, st2⟩ | _ | _ <;> simp only [Prod.mk.injEq] at hs <;> exact hs.2.2.1.symm
        obtain ⟨h8, h9⟩ := first d hd hh
        rw [this, records_append, posted_append, h8, h7 d (fun a up h => hd a up (.tail _ h)) (h9 _ _ rfl)]
    · simp only [Prod.mk.injEq] at hs
      obtain ⟨rfl, rfl, rfl, rfl⟩ := hs
      exact ⟨t1, by rw [hrun _ _ h2]; rfl, h3, fun d hd hh => (first d hd hh).1⟩
    · simp only [Prod.mk.injEq] at hs
      obtain ⟨rfl, rfl, rfl, rfl⟩ := hs
      exact ⟨t1, by rw [hrun _ _ h2]; rfl, h3, fun d hd hh => (first d hd hh).1⟩

end SudoPair.Drain

namespace SudoPair
open Audit Spec

/-- **C81.**  The log that a session's records go to. -/
theorem C81_destination (b : Drain.Build) (up : Bool) : (Drain.sessionLogger b up).drain = destined b up :=
  Drain.drain_sessionLogger b up

/-- **C81.**  With the features that the crate has by default it is syslog, of the system the plugin is built for, if
that can be reached. -/
theorem C81_default (macos up : Bool) : (Drain.sessionLogger ⟨.default, macos⟩ up).drain =
    if up then .syslog (if macos then b! "/private/var/run/syslog" else b! "/dev/log") .auth else .discard := by
  cases macos <;> cases up <;> rfl

/-- **C81.**  Its logger adds the name and the version of the plugin, unless it discards everything. -/
theorem C81_keys (b : Drain.Build) (up : Bool) : (Drain.sessionLogger b up).keys =
    if destined b up = .discard then []
    else [(b! "plugin_name", .text (b! "sudo_pair")), (b! "plugin_version", .text (b! "1.2.0"))] := by
  rcases b with ⟨⟨s, j⟩, m⟩
  cases s <;> cases j <;> cases m <;> cases up <;> rfl

/-- **C81.**  Where the records go, whether syslog can be reached, and which records are made at all: none of it
matters to sudo or to the system.  Every history of callbacks has the same outcome, and interacts in the same way, as
in the model without records. -/
theorem C81_unaffected (rt : Rt) (l : Level) (b : Drain.Build) (cs : List (Core.Call × Bool)) (st : Drain.State)
    (s : Sched) :
    let r := outward (Drain.run { rt with maxLevel := l } b cs st s)
    (bare r.1, r.2) = Core.run rt (cs.map (·.1)) st.core s := by
  rcases h : Drain.run { rt with maxLevel := l } b cs st s with ⟨o, e, sent, s'⟩
  obtain ⟨t, h1, rfl, _⟩ := Drain.run_audit _ b cs st s h
  have h2 := congrFun (C66_erase_run { rt with maxLevel := l } (cs.map (·.1)) st.core) s
  rw [Drain.run_level] at h2
  rw [← h2]
  simp only [L.erase, h1, outward]
  rfl

/-- **C81.**  `open` sends the records that it makes, in order, to the log that was found when it began; even if there
is a session already. -/
theorem C81_open {rt : Rt} {b : Drain.Build} {a : OpenArgs} {up : Bool} {st : Drain.State} {s : Sched} {o h sent s'}
    (hs : Drain.step rt b (.open a) up st s = (o, h, sent, s')) :
    ∃ o' t, LRuns (Audit.Core.open rt a st.core) o' t ∧ (∀ r st', o = .ok (r, st') → o' = .ok (r, st'.core)) ∧
      (o = .killed → o' = .killed) ∧ sent = Posted (destined b up) rt.maxLevel (records t) := by
  obtain ⟨t, h1, _, h2, _⟩ := Drain.step_audit rt b _ up st s hs
  refine ⟨_, t, lruns_of h1, ?_, ?_, ?_⟩
  · rintro r st' rfl; rfl
  · rintro rfl; rfl
  · rw [h2, Drain.sendAll_eq]
    exact congrArg (Posted · _ _) (Drain.drain_sessionLogger b up)

/-- **C81.**  A session keeps to the log that it found when it began: whether syslog can be reached later, and what
another `open` finds, does not matter.  Callbacks send their records there. -/
theorem C81_kept {rt : Rt} {b : Drain.Build} {c : Core.Call} {up : Bool} {st : Drain.State} {s : Sched} {o h sent s'}
    (hs : Drain.step rt b c up st s = (o, h, sent, s')) (p : Pair) (hp : st.core.plugin = some p)
    (lg : Drain.Logger) (hl : st.logger = some lg) :
    (∀ r st', o = .ok (r, st') → c ≠ .close → st'.logger = some lg) ∧
    ((∀ a, c ≠ .open a) → ∃ o' t, LRuns (Audit.Core.step rt c st.core) o' t ∧
      (∀ r st', o = .ok (r, st') → o' = .ok (r, st'.core)) ∧ (o = .killed → o' = .killed) ∧
      sent = Posted lg.drain rt.maxLevel (records t)) := by
  obtain ⟨t, h1, _, h2, h3⟩ := Drain.step_audit rt b c up st s hs
  constructor
  · intro r st' ho hc
    have h4 := h3 r st' ho
    subst ho
    have hk : st'.core.plugin ≠ none := Drain.step_some h1 hc (by rw [hp]; simp)
    cases hq : st'.core.plugin with
    | none => exact absurd hq hk
    | some q => rw [hq, hp] at h4; rw [h4]; exact hl
  · intro hc
    refine ⟨_, t, lruns_of h1, by rintro r st' rfl; rfl, by rintro rfl; rfl, ?_⟩
    rw [h2, Drain.sendAll_eq]
    have : Drain.using' b c up st = lg := by
      cases c with
      | «open» a => exact absurd rfl (hc a)
      | _ => simp [Drain.using', hl]
    rw [this]

/-- **C81.**  A new session has the log that was found when it began; without a session there is none. -/
theorem C81_begins {rt : Rt} {b : Drain.Build} {c : Core.Call} {up : Bool} {st : Drain.State} {s : Sched} {r st' h sent s'}
    (hs : Drain.step rt b c up st s = (.ok (r, st'), h, sent, s')) :
    (st'.core.plugin = none → st'.logger = none) ∧
    (st.core.plugin = none → st'.core.plugin ≠ none → (∃ a, c = .open a) ∧ ∃ lg, st'.logger = some lg ∧ lg.drain = destined b up) := by
  obtain ⟨t, h1, _, _, h3⟩ := Drain.step_audit rt b c up st s hs
  have h4 := h3 r st' rfl
  constructor
  · intro hn
    rw [hn] at h4
    exact h4
  · intro hn hp
    have hc : ∃ a, c = .open a := by
      refine Classical.byContradiction fun hc => ?_
      exact hp (Drain.step_none h1 (fun a h => hc ⟨a, h⟩) hn)
    refine ⟨hc, ?_⟩
    cases hq : st'.core.plugin with
    | none => exact absurd hq hp
    | some q =>
      rw [hq, hn] at h4
      refine ⟨_, h4, ?_⟩
      obtain ⟨a, rfl⟩ := hc
      exact Drain.drain_sessionLogger b up

/-- **C81.**  If every `open` finds the same log, it gets all records of the history that the build makes, in order,
and nothing else; nothing at all if it is none. -/
theorem C81_history {rt : Rt} {b : Drain.Build} {cs : List (Core.Call × Bool)} {s : Sched} {o h sent s'}
    (hs : Drain.run rt b cs .empty s = (o, h, sent, s')) (d : Drain.Drain)
    (hd : ∀ a up, (.open a, up) ∈ cs → destined b up = d) :
    ∃ t, LRuns (Audit.Core.run rt (cs.map (·.1)) ⟨none, none⟩) (bare o) t ∧ sent = Posted d rt.maxLevel (records t) := by
  obtain ⟨t, h1, _, h2⟩ := Drain.run_audit rt b cs .empty s hs
  exact ⟨t, lruns_of h1, h2 d hd (fun h => absurd rfl h)⟩

/-- **C81.**  Sessions of a build without journald, if syslog cannot be reached, leave no record anywhere. -/
theorem C81_unreachable {rt : Rt} {b : Drain.Build} (hb : b.features.journald = false) {cs : List (Core.Call × Bool)} {s : Sched}
    {o h sent s'} (hs : Drain.run rt b cs .empty s = (o, h, sent, s')) (hu : ∀ a up, (.open a, up) ∈ cs → up = false) :
    sent = [] := by
  obtain ⟨t, _, h2⟩ := C81_history hs .discard (by
    intro a up h
    rw [hu a up h]
    rcases b with ⟨⟨f, j⟩, m⟩
    change j = false at hb
    subst hb
    cases f <;> cases m <;> rfl)
  rw [h2]; rfl

/-- The texts of the records sent that every usual build makes. -/
def textsSent (l : List Drain.Sent) : List Bytes := (l.filter fun x => Lasting x.record.level).map (·.record.msg)

theorem texts_posted {d : Drain.Drain} (hd : d ≠ .discard) {max : Level} (hm : max = .trace ∨ max = .debug ∨ max = .info)
    (t : List Audit.Entry) : textsSent (Posted d max (records t)) = messages (view t) := by
  have key : ∀ l : List Record, textsSent (Posted d max l) = (l.filter fun r => Lasting r.level).map (·.msg) := by
    intro l
    unfold textsSent Posted
    rw [if_neg hd, List.filter_map, List.map_map, List.filter_filter]
    have : ∀ r : Record, (((fun x : Drain.Sent => Lasting x.record.level) ∘ fun r => (⟨d, r⟩ : Drain.Sent)) r && Matters max r.level) =
        Lasting r.level := by
      intro r
      show (Lasting r.level && Matters max r.level) = _
      rcases hm with rfl | rfl | rfl <;> cases r.level <;> rfl
    rw [List.filter_congr fun r _ => this r]
    rfl
  rw [key]
  unfold messages
  congr 1
  induction t with
  | nil => rfl
  | cons e t ih =>
    cases e with
    | sys e => simpa [records, view] using ih
    | note r =>
      cases hr : Lasting r.level
      · simpa [records, view, hr] using ih
      · simpa [records, view, hr] using ih

/-- **C81.**  Whenever a command is allowed to run, and a log was found, that log is told why: the session was exempt,
or a pair approved it. -/
theorem C81_accountable {rt : Rt} (hm : rt.maxLevel = .trace ∨ rt.maxLevel = .debug ∨ rt.maxLevel = .info)
    {b : Drain.Build} {a : OpenArgs} {up : Bool} {st st' : Drain.State} {s : Sched} {h sent s'}
    (hs : Drain.step rt b (.open a) up st s = (.ok (1, st'), h, sent, s')) (hd : destined b up ≠ .discard)
    (env0 : IoEnv) (hn : IoEnv.new rt a = some (.ok env0)) (hc : (effEnv st.core env0).commandInfo.command ≠ []) :
    (∀ x ∈ sent, x.to = destined b up) ∧
    (textsSent sent = [b! "pair session exempt from pairing requirements"] ∨ textsSent sent = grantedMessages) := by
  obtain ⟨o', t, h1, h2, _, h3⟩ := C81_open hs
  have h4 := h2 1 st' rfl
  subst h4
  rw [h3, texts_posted hd hm]
  refine ⟨?_, C66_accountable h1 env0 hn hc⟩
  intro x hx
  unfold Posted at hx
  rw [if_neg hd] at hx
  obtain ⟨r, _, rfl⟩ := List.mem_map.1 hx
  rfl

/-- The default build on Linux. -/
def usual : Drain.Build := ⟨.default, false⟩

/-- An approved session in the default release build, with syslog, and the records that it gets. -/
example :
    let r := Drain.run sampleRt usual [(.open sampleArgs, true), (.log .ttyout (b! "hi"), false), (.close, false)] .empty
      (List.replicate 100 (coop 121))
    r.2.2.1.map (·.record.msg) = [b! "pair session required", b! "socket waiting for pair to connect...",
      b! "socket connected", b! "remote pair approved session", b! "pair session started", b! "pair session ended"] ∧
    r.2.2.1.map (·.to) = List.replicate 6 (.syslog (b! "/dev/log") .auth) := by decide +kernel

/-- The same session without syslog, as far as anybody can tell from the log, did not happen. -/
example :
    let r := Drain.run sampleRt usual [(.open sampleArgs, false), (.log .ttyout (b! "hi"), true), (.close, true)] .empty
      (List.replicate 100 (coop 121))
    (match r.1 with | .ok (l, _) => l | _ => []) = [1, 1, 0] ∧ r.2.2.1 = [] := by decide +kernel

/-- A second `open` that finds syslog sends its records there; the session that it does not replace still has none. -/
example :
    let r := Drain.run sampleRt usual [(.open sampleArgs, false), (.open sampleArgs, true), (.close, true)] .empty
      (List.replicate 100 (coop 121))
    r.2.2.1.map (·.record.msg) = grantedMessages := by decide +kernel

/-- The hypotheses of C81_accountable are met. -/
example : (∃ st' h sent s', Drain.step sampleRt usual (.open sampleArgs) true .empty (List.replicate 100 (coop 121)) =
      (.ok (1, st'), h, sent, s') ∧ textsSent sent = grantedMessages) ∧ destined usual true ≠ .discard ∧
    IoEnv.new sampleRt sampleArgs = some (.ok argsEnv) ∧ (effEnv ⟨none, none⟩ argsEnv).commandInfo.command ≠ [] := by
  refine ⟨?_, by decide, by decide +kernel, by decide +kernel⟩
  rcases h : Drain.step sampleRt usual (.open sampleArgs) true .empty (List.replicate 100 (coop 121)) with ⟨o, e, sent, s'⟩
  have h1 : (match (Drain.step sampleRt usual (.open sampleArgs) true .empty (List.replicate 100 (coop 121))).1 with
    | .ok (r, _) => r | _ => 0) = 1 := by decide +kernel
  have h2 : textsSent (Drain.step sampleRt usual (.open sampleArgs) true .empty (List.replicate 100 (coop 121))).2.2.1 =
    grantedMessages := by decide +kernel
  rw [h] at h1 h2
  rcases o with ⟨r, st'⟩ | _ | _
  · simp only at h1; subst h1; exact ⟨st', e, sent, s', rfl, h2⟩
  · exact absurd h1 (by simp)
  · exact absurd h1 (by simp)

end SudoPair
