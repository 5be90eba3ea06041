import Verif.Lemmas.Story
import Verif.Lemmas.Exec
import Verif.Props.Protocol
/-
C66: what the log tells about a session.
-/
namespace SudoPair.Audit
open Spec

variable {α β : Type}

theorem records_append (t u : List Entry) : records (t ++ u) = records t ++ records u := by
  induction t with
  | nil => rfl
  | cons e t ih => cases e <;> simp [records, ih]

@[simp] theorem records_acts (h : Hist) : records (acts h) = [] := by
  induction h with
  | nil => rfl
  | cons e h ih => exact ih

theorem mem_records {t : List Entry} {r : Record} : r ∈ records t ↔ .note r ∈ t := by
  induction t with
  | nil => simp [records]
  | cons e t ih => cases e <;> simp [records, ih]

theorem allEnt_catchUnwind {P : Entry → Prop} {m : L α} (hm : AllEnt P m) : AllEnt P (L.catchUnwind m) := by
  intro s e he
  rcases LRuns.catchUnwind (m := m) ⟨s, rfl, rfl⟩ with ⟨a, _, h⟩ | ⟨_, h⟩ | ⟨_, h⟩
  · exact hm.of h e he
  · exact hm.of h e he
  · exact hm.of h e he

/-! ### Lasting records of the other callbacks -/

theorem faint_logOutput (p : Pair) (b : Bytes) : Faint (logOutput p b) := by
  unfold logOutput
  refine allEnt_bind (faint_lift _) fun r => ?_
  cases r with
  | error e => exact allEnt_pure _
  | ok u => exact allEnt_bind (faint_say' rfl) fun _ => allEnt_pure _

theorem faint_handler (rt : Rt) (p : Pair) (b : Bytes) (f : Facility) : Faint (handler rt p b f) := by
  cases f
  · exact allEnt_pure _
  · exact faint_logOutput p b
  · exact allEnt_bind (faint_isExempt _ p) fun _ => allEnt_ite (allEnt_pure _) (allEnt_pure _)
  · exact faint_logOutput p b
  · exact faint_logOutput p b

theorem faint_log (rt : Rt) (f : Facility) (b : Bytes) (st : State) : Faint (Core.log rt f b st) := by
  unfold Core.log
  exact allEnt_bind (allEnt_catchUnwind (allEnt_bind (faint_lift _) fun _ => allEnt_bind (faint_lift _) fun _ =>
    allEnt_ite (allEnt_pure _) (allEnt_bind (faint_handler _ _ _ _) fun _ => faint_lift _))) fun _ => allEnt_pure _

theorem faint_changeWinsize (l c : Nat) (st : State) : Faint (Core.changeWinsize l c st) := by
  unfold Core.changeWinsize
  exact allEnt_bind (allEnt_catchUnwind (allEnt_bind (faint_lift _) fun _ => allEnt_bind (faint_lift _) fun _ =>
    allEnt_bind (faint_logOutput _ _) fun _ => faint_lift _)) fun _ => allEnt_pure _

/-- Runs of `close` on a plugin. -/
theorem close_story {p : Pair} {o t} (hr : LRuns (close p) o t) :
    (p.socket = none ∧ o = .ok () ∧ view t = []) ∨
    ∃ fd, p.socket = some fd ∧
      ((o = .killed ∧ view t = []) ∨
       (∃ b : Bool, o = .killed ∧
          view t = [.sys ⟨.shutdown fd, b⟩, mark p.env .info (b! "pair session ended")]) ∨
       ∃ b c : Bool, o = .ok () ∧
          view t = [.sys ⟨.shutdown fd, b⟩, mark p.env .info (b! "pair session ended"), .sys ⟨.shutdown fd, c⟩]) := by
  unfold close at hr
  cases hs : p.socket with
  | none =>
    left
    rw [hs] at hr
    simp only at hr
    obtain ⟨rfl, hv⟩ := exiting_runs hr
    exact ⟨rfl, rfl, hv⟩
  | some fd =>
    refine Or.inr ⟨fd, rfl, ?_⟩
    rw [hs] at hr
    simp only at hr
    inv LRuns.psay_bind hr with ⟨t1, hr, rfl⟩
    rw [view_faint rfl]
    inv LRuns.lift_bind hr with ⟨u, h1, t2, h, hr, rfl⟩ | ⟨rfl, h1, h, rfl⟩ | ⟨rfl, h1, h, rfl⟩
    · rcases close_runs h with ⟨h, _⟩ | ⟨b, _, rfl⟩
      · exact absurd h (by simp)
      inv LRuns.psay_bind hr with ⟨t1, hr, rfl⟩
      rw [view_append, view_acts', view_lasting rfl]
      inv LRuns.lift_bind hr with ⟨u, h1, t2, h', hr, rfl⟩ | ⟨rfl, h1, h', rfl⟩ | ⟨rfl, h1, h', rfl⟩
      · rcases close_runs h' with ⟨h, _⟩ | ⟨c, _, rfl⟩
        · exact absurd h (by simp)
        obtain ⟨rfl, hv⟩ := exiting_runs hr
        rw [view_append, view_acts', hv]
        exact Or.inr (Or.inr ⟨b, c, rfl, rfl⟩)
      · rcases close_runs h' with ⟨h, _⟩ | ⟨_, h, _⟩ <;> exact absurd h (by simp)
      · rcases close_runs h' with ⟨_, rfl⟩ | ⟨_, h, _⟩
        · exact Or.inr (Or.inl ⟨b, rfl, rfl⟩)
        · exact absurd h (by simp)
    · rcases close_runs h with ⟨h, _⟩ | ⟨_, h, _⟩ <;> exact absurd h (by simp)
    · rcases close_runs h with ⟨_, rfl⟩ | ⟨_, h, _⟩
      · exact Or.inl ⟨rfl, rfl⟩
      · exact absurd h (by simp)

theorem coreClose_story {st : State} {o t} (hr : LRuns (Core.close st) o t) :
    (live st = 0 ∧ o = .ok ⟨none, none⟩ ∧ view t = []) ∨
    ∃ p fd, st.plugin = some p ∧ p.socket = some fd ∧
      ((o = .killed ∧ view t = []) ∨
       (∃ b : Bool, o = .killed ∧
          view t = [.sys ⟨.shutdown fd, b⟩, mark p.env .info (b! "pair session ended")]) ∨
       ∃ b c : Bool, o = .ok ⟨none, none⟩ ∧
          view t = [.sys ⟨.shutdown fd, b⟩, mark p.env .info (b! "pair session ended"), .sys ⟨.shutdown fd, c⟩]) := by
  unfold Core.close at hr
  cases hp : st.plugin with
  | none =>
    left
    rw [hp] at hr
    obtain ⟨rfl, rfl⟩ := hr.pure
    exact ⟨by simp [live, hp], rfl, rfl⟩
  | some p =>
    rw [hp] at hr
    simp only at hr
    inv LRuns.bind hr with ⟨_, t1, t2, h1, hr, rfl⟩ | ⟨rfl, h1⟩ | ⟨rfl, h1⟩
    · obtain ⟨rfl, rfl⟩ := hr.pure
      rw [List.append_nil]
      rcases close_story h1 with ⟨hs, _, hv⟩ | ⟨fd, hs, ⟨h, _⟩ | ⟨b, h, _⟩ | ⟨b, c, _, hv⟩⟩
      · exact Or.inl ⟨by simp [live, hp, hs], rfl, hv⟩
      · exact absurd h (by simp)
      · exact absurd h (by simp)
      · exact Or.inr ⟨p, fd, rfl, hs, Or.inr (Or.inr ⟨b, c, rfl, hv⟩)⟩
    · rcases close_story h1 with ⟨hs, h, hv⟩ | ⟨fd, hs, ⟨h, _⟩ | ⟨b, h, _⟩ | ⟨b, c, h, hv⟩⟩ <;>
        exact absurd h (by simp)
    · rcases close_story h1 with ⟨hs, h, hv⟩ | ⟨fd, hs, ⟨_, hv⟩ | ⟨b, _, hv⟩ | ⟨b, c, h, hv⟩⟩
      · exact absurd h (by simp)
      · exact Or.inr ⟨p, fd, rfl, hs, Or.inl ⟨rfl, hv⟩⟩
      · exact Or.inr ⟨p, fd, rfl, hs, Or.inr (Or.inl ⟨b, rfl, hv⟩)⟩
      · exact absurd h (by simp)

end SudoPair.Audit

namespace SudoPair
open Audit Spec

/-- **C66.**  Logging changes nothing: with the records left out, every callback does exactly what the model
without them does. -/
theorem C66_erase (rt : Rt) (c : SudoPair.Core.Call) (st : State) :
    L.erase (Audit.Core.step rt c st) = SudoPair.Core.step rt c st := erase_step rt c st

/-- **C66.**  So does every history of callbacks. -/
theorem C66_erase_run (rt : Rt) (cs : List SudoPair.Core.Call) (st : State) :
    L.erase (Audit.Core.run rt cs st) = SudoPair.Core.run rt cs st := erase_run rt cs st

/-- **C66.**  The lasting records are those that are compiled in by default, in debug builds and in release builds,
and with the features that sample/Makefile asks for. -/
theorem C66_levels (l : Level) :
    Lasting l = true ↔ ∀ max, (max = .debug ∨ max = .info ∨ max = .trace) → Level.compiled max l = true := by
  cases l <;> simp [Lasting, Level.compiled, Level.number]

/-- **C66.**  Nothing lasting is recorded about rejected arguments. -/
theorem C66_rejected {rt : Rt} {a : OpenArgs} {st : State} {o t} (hr : LRuns (Audit.Core.open rt a st) o t)
    (hn : ∀ env0, IoEnv.new rt a ≠ some (.ok env0)) : records (view t) = [] := by
  have ho := coreOpened_runs hr
  generalize view t = v at ho
  cases ho with
  | rejected _ h _ => exact records_acts h
  | empty env0 _ h _ => exact absurd h (hn env0)
  | undecided env0 _ h _ _ => exact absurd h (hn env0)
  | exempt env0 _ h _ _ _ => exact absurd h (hn env0)
  | told env0 _ _ h _ _ _ => exact absurd h (hn env0)

/-- **C66.**  Nor about `sudo -V` and the like, where there is no command, nor when a debug build trips over an
assertion while it decides about the session. -/
theorem C66_silent {rt : Rt} {a : OpenArgs} {st : State} {o t} (hr : LRuns (Audit.Core.open rt a st) o t)
    (env0 : IoEnv) (hn : IoEnv.new rt a = some (.ok env0))
    (hs : (effEnv st env0).commandInfo.command = [] ∨
      (rt.debug = true ∧ Trips (effEnv st env0) (.ofMap (effEnv st env0).pluginOptions))) : view t = [] := by
  have ho := coreOpened_runs hr
  generalize view t = v at ho
  have tr : ∀ b, (effEnv st env0).commandInfo.command ≠ [] →
      (Pair.ofEnv (effEnv st env0)).isExempt rt.debug ≠ some b := by
    intro b hc hb
    rcases hs with h | ⟨hd, h⟩
    · exact hc h
    · rw [hd, (C50_trips _).2 h] at hb; exact absurd hb (by simp)
  cases ho with
  | rejected _ h hno => exact absurd hn (hno env0)
  | empty => rfl
  | undecided => rfl
  | exempt env1 _ h1 h2 h3 _ => rw [hn] at h1; cases h1; exact absurd h3 (tr _ h2)
  | told env1 _ _ h1 h2 h3 _ => rw [hn] at h1; cases h1; exact absurd h3 (tr _ h2)

theorem decided {rt : Rt} {E : IoEnv} (ht : ¬ (rt.debug = true ∧ Trips E (.ofMap E.pluginOptions))) :
    (Pair.ofEnv E).isExempt rt.debug ≠ none := by
  intro h
  cases hd : rt.debug with
  | true => rw [hd] at h; exact ht ⟨hd, (C50_trips _).1 h⟩
  | false =>
    rw [hd] at h
    obtain ⟨b, hb⟩ := C04_total (Pair.ofEnv E)
    rw [hb] at h; exact absurd h (by simp)

/-- **C66.**  An exempt session is accepted, and recorded as exempt; nothing else happens. -/
theorem C66_exempt {rt : Rt} {a : OpenArgs} {st : State} {o t} (hr : LRuns (Audit.Core.open rt a st) o t)
    (env0 : IoEnv) (hn : IoEnv.new rt a = some (.ok env0)) (hc : (effEnv st env0).commandInfo.command ≠ [])
    (ht : ¬ (rt.debug = true ∧ Trips (effEnv st env0) (.ofMap (effEnv st env0).pluginOptions)))
    (he : Exempt (effEnv st env0) (.ofMap (effEnv st env0).pluginOptions)) :
    view t = [mark (effEnv st env0) .info (b! "pair session exempt from pairing requirements")] ∧
      ∃ st', o = .ok (1, st') := by
  have ho := coreOpened_runs hr
  generalize view t = v at ho
  cases ho with
  | rejected _ h hno => exact absurd hn (hno env0)
  | empty env1 _ h1 h2 => rw [hn] at h1; cases h1; exact absurd h2 hc
  | undecided env1 _ h1 _ h3 => rw [hn] at h1; cases h1; exact absurd h3 (decided ht)
  | exempt env1 st' h1 h2 h3 _ => rw [hn] at h1; cases h1; exact ⟨rfl, st', rfl⟩
  | told env1 _ _ h1 h2 h3 _ =>
    rw [hn] at h1; cases h1
    exact absurd ((C04_rule _ _ _ h3).2 he) (by simp)

/-- **C66.**  Any other session leaves one of the stories of `Story`, which goes with what sudo is told. -/
theorem C66_story {rt : Rt} {a : OpenArgs} {st : State} {o t} (hr : LRuns (Audit.Core.open rt a st) o t)
    (env0 : IoEnv) (hn : IoEnv.new rt a = some (.ok env0)) (hc : (effEnv st env0).commandInfo.command ≠ [])
    (ht : ¬ (rt.debug = true ∧ Trips (effEnv st env0) (.ofMap (effEnv st env0).pluginOptions)))
    (he : ¬ Exempt (effEnv st env0) (.ofMap (effEnv st env0).pluginOptions)) :
    Story (Detailed rt) (effEnv st env0) (sessionPath (effEnv st env0)) (ending o) (view t) := by
  rw [← sessionPath_eq]
  have ho := coreOpened_runs hr
  generalize view t = v at ho
  cases ho with
  | rejected _ h hno => exact absurd hn (hno env0)
  | empty env1 _ h1 h2 => rw [hn] at h1; cases h1; exact absurd h2 hc
  | undecided env1 _ h1 _ h3 => rw [hn] at h1; cases h1; exact absurd h3 (decided ht)
  | exempt env1 st' h1 h2 h3 _ => rw [hn] at h1; cases h1; exact absurd ((C04_rule _ _ _ h3).1 rfl) he
  | told env1 _ _ h1 h2 h3 hs => rw [hn] at h1; cases h1; exact hs

/-- The messages of the lasting records. -/
def messages (t : List Entry) : List Bytes := (records t).map (·.msg)

/-- The messages of a story that ended well. -/
def grantedMessages : List Bytes :=
  [b! "pair session required", b! "socket waiting for pair to connect...", b! "socket connected",
   b! "remote pair approved session", b! "pair session started"]

theorem messages_acts (h : Hist) (t : List Audit.Entry) : messages (acts h ++ t) = messages t := by
  simp [messages, records_append]

theorem messages_mark (E : IoEnv) (l : Level) (m : Bytes) (own : Fields) (t : List Audit.Entry) :
    messages (mark E l m own :: t) = m :: messages t := rfl

theorem messages_nil : messages [] = [] := rfl

theorem answers_mem {b : UInt8} {talk : Hist} (hm : some b ∈ answers talk) : ∃ fd n l,
    ∃ hl : (b :: l).length ≤ n, (⟨.sockRead fd n, .data (b :: l) hl⟩ : Ev) ∈ talk := by
  induction talk with
  | nil => exact absurd hm (by simp [answers])
  | cons x talk ih =>
    have next : some b ∈ answers talk → ∃ fd n l, ∃ hl : (b :: l).length ≤ n,
        (⟨.sockRead fd n, .data (b :: l) hl⟩ : Ev) ∈ x :: talk := by
      intro hm
      obtain ⟨fd, n, l, hl, h⟩ := ih hm
      exact ⟨fd, n, l, hl, .tail _ h⟩
    rcases x with ⟨c, r⟩
    cases c <;> try exact next hm
    rename_i fd n
    rcases r with ⟨l, hl⟩ | _ | _
    · rcases List.mem_cons.1 hm with h | h
      · cases l with
        | nil => exact absurd h (by simp)
        | cons c l =>
          simp only [List.head?_cons, Option.some.injEq] at h
          subst h
          exact ⟨fd, n, l, hl, .head _⟩
      · exact next h
    · exact next hm
    · exact next hm

theorem story_messages {E : IoEnv} {path : Bytes} {e : Ending} {t : List Audit.Entry} {detailed : Bool} (h : Story detailed E path e t) :
    (messages t = grantedMessages ∧ e ≠ .refused ∧
        ∃ fd n b l, ∃ hl : (b :: l).length ≤ n, (b = 121 ∨ b = 89) ∧
          Audit.Entry.sys ⟨.sockRead fd n, .data (b :: l) hl⟩ ∈ t) ∨
    (e ≠ .granted ∧ messages t ∈
      [[b! "pair session required", b! "both -u and -g were provided to sudo"],
       [b! "pair session required"],
       [b! "pair session required", b! "socket waiting for pair to connect..."],
       [b! "pair session required", b! "socket waiting for pair to connect...", b! "socket connected"],
       [b! "pair session required", b! "socket waiting for pair to connect...", b! "socket connected",
        b! "remote pair declined session"]]) := by
  have na : ∀ h : Hist, messages (acts h) = [] := fun h => by simp [messages]
  cases h with
  | conflict h _ _ he _ _ => exact Or.inr ⟨he, by simp [messages_mark, na]⟩
  | unready h _ _ he _ => exact Or.inr ⟨he, by simp [messages_mark, na]⟩
  | unconnected h h' h'' _ _ _ _ he _ =>
    exact Or.inr ⟨he, by simp [messages_acts, messages_mark, na]⟩
  | unanswered h h' talk lv _ _ _ _ _ _ _ he _ =>
    exact Or.inr ⟨he, by simp [messages_acts, messages_mark, na]⟩
  | declined h h' talk lv _ _ _ _ _ _ _ _ he _ _ _ =>
    exact Or.inr ⟨he, by simp [messages_acts, messages_mark, na]⟩
  | approved h h' talk lv fd b _ _ _ _ _ _ he ha hb =>
    refine Or.inl ⟨by simp [messages_acts, messages_mark, na, grantedMessages], ?_, ?_⟩
    · rcases he with rfl | rfl <;> simp
    · obtain ⟨fd', n, l, hl, hm⟩ := answers_mem (b := b) (talk := talk) (by rw [ha]; exact .head _)
      refine ⟨fd', n, b, l, hl, hb, ?_⟩
      have : Audit.Entry.sys ⟨.sockRead fd' n, .data (b :: l) hl⟩ ∈ acts talk := List.mem_map.2 ⟨_, hm, rfl⟩
      simp [this]

/-- **C66.**  The sequence of messages of an `open` for a session that needs a pair tells how it ended: the
callback returned success only with all five, and with all five only after the pair answered `y` or `Y`; any
other ending stops short of "approved". -/
theorem C66_messages {rt : Rt} {a : OpenArgs} {st : State} {o t} (hr : LRuns (Audit.Core.open rt a st) o t)
    (env0 : IoEnv) (hn : IoEnv.new rt a = some (.ok env0)) (hc : (effEnv st env0).commandInfo.command ≠ [])
    (ht : ¬ (rt.debug = true ∧ Trips (effEnv st env0) (.ofMap (effEnv st env0).pluginOptions)))
    (he : ¬ Exempt (effEnv st env0) (.ofMap (effEnv st env0).pluginOptions)) :
    (messages (view t) = grantedMessages ∧ ending o ≠ .refused ∧
        ∃ fd n b l, ∃ hl : (b :: l).length ≤ n, (b = 121 ∨ b = 89) ∧
          Audit.Entry.sys ⟨.sockRead fd n, .data (b :: l) hl⟩ ∈ view t) ∨
    (ending o ≠ .granted ∧ messages (view t) ∈
      [[b! "pair session required", b! "both -u and -g were provided to sudo"],
       [b! "pair session required"],
       [b! "pair session required", b! "socket waiting for pair to connect..."],
       [b! "pair session required", b! "socket waiting for pair to connect...", b! "socket connected"],
       [b! "pair session required", b! "socket waiting for pair to connect...", b! "socket connected",
        b! "remote pair declined session"]]) :=
  story_messages (C66_story hr env0 hn hc ht he)

/-- **C66.**  A session for which there is nobody to ask, because only the group changes and without `-g` (C46),
crashes.  The log says that the plugin was waiting for the pair, unless the build has the records of
level `debug`. -/
theorem C66_nobody {rt : Rt} {a : OpenArgs} {st : State} {o t} (hr : LRuns (Audit.Core.open rt a st) o t)
    (env0 : IoEnv) (hn : IoEnv.new rt a = some (.ok env0)) (hc : (effEnv st env0).commandInfo.command ≠ [])
    (ht : ¬ (rt.debug = true ∧ Trips (effEnv st env0) (.ofMap (effEnv st env0).pluginOptions)))
    (he : ¬ Exempt (effEnv st env0) (.ofMap (effEnv st env0).pluginOptions))
    (hno : Nobody (effEnv st env0)) (hcut : ending o ≠ .cut) (hov : ∀ x, Audit.Entry.sys x ∈ view t → ¬ Overcount x) :
    ending o = .refused ∧ messages (view t) =
      b! "pair session required" :: if Detailed rt then [] else [b! "socket waiting for pair to connect..."] := by
  have na : ∀ h : Hist, messages (acts h) = [] := fun h => by simp [messages]
  have hs := C66_story hr env0 hn hc ht he
  generalize view t = v at hs hov
  generalize ending o = e at hs hcut
  have href : e ≠ .granted → e = .refused := by cases e <;> simp at hcut ⊢
  cases hs with
  | conflict h _ _ _ h1 _ => exact absurd hno.1 h1
  | unready h _ _ hg h2 =>
    refine ⟨href hg, ?_⟩
    rcases h2 with h2 | ⟨x, hx, h2⟩ | ⟨h2, _⟩
    · exact absurd h2 hcut
    · exact absurd h2 (hov x (List.mem_cons_of_mem _ (List.mem_map.2 ⟨x, hx, rfl⟩)))
    · simp [messages_mark, na, h2]
  | unconnected h h' h'' _ _ _ _ hg h2 =>
    refine ⟨href hg, ?_⟩
    obtain ⟨h3, rfl⟩ := h2 hno
    simp [messages_mark, messages_acts, na, h3]
  | unanswered _ _ _ _ _ _ _ _ _ _ h1 => exact absurd hno h1
  | declined _ _ _ _ _ _ _ _ _ _ _ h1 => exact absurd hno h1
  | approved _ _ _ _ _ _ _ _ _ _ _ h1 => exact absurd hno h1

/-- **C66.**  Whenever `open` lets a command run, the log says why: the session was exempt, or a pair approved
it.  (In a debug build whose assertions trip, `open` refuses.) -/
theorem C66_accountable {rt : Rt} {a : OpenArgs} {st st' : State} {t}
    (hr : LRuns (Audit.Core.open rt a st) (.ok (1, st')) t)
    (env0 : IoEnv) (hn : IoEnv.new rt a = some (.ok env0)) (hc : (effEnv st env0).commandInfo.command ≠ []) :
    messages (view t) = [b! "pair session exempt from pairing requirements"] ∨
    messages (view t) = grantedMessages := by
  have htr : ¬ (rt.debug = true ∧ Trips (effEnv st env0) (.ofMap (effEnv st env0).pluginOptions)) := by
    rintro ⟨hd, h⟩
    have hi : (Pair.ofEnv (effEnv st env0)).isExempt rt.debug = none := by rw [hd]; exact (C50_trips _).2 h
    have he := hr.erase
    rw [show L.erase (Audit.Core.open rt a st) = SudoPair.Core.open rt a st from erase_step rt (.open a) st] at he
    have ho := coreOpen_runs he
    have np : ∀ {p h}, ¬ PairOpen rt (Pair.ofEnv (effEnv st env0)) (.ok (.ok p)) h := by
      intro p h hp
      cases hp with
      | exempt h => rw [hi] at h; exact absurd h (by simp)
      | approved h => rw [hi] at h; exact absurd h (by simp)
    generalize events t = ev at ho
    cases ho with
    | empty h1 h2 => rw [hn] at h1; cases h1; exact hc h2
    | accepted h1 _ h3 _ => rw [hn] at h1; cases h1; exact np h3
    | again h1 _ h3 _ _ => rw [hn] at h1; cases h1; exact np h3
  by_cases hx : Exempt (effEnv st env0) (.ofMap (effEnv st env0).pluginOptions)
  · rw [(C66_exempt hr env0 hn hc htr hx).1]
    exact Or.inl rfl
  · rcases C66_messages hr env0 hn hc htr hx with ⟨h, _⟩ | ⟨h, _⟩
    · exact Or.inr h
    · exact absurd (show ending (.ok (1, st')) = .granted from rfl) h

/-- **C66.**  `close` records the end of the session exactly if a pair is connected: between the two hang-ups. -/
theorem C66_close {st : State} {o t} (hr : LRuns (Audit.Core.close st) o t) :
    (live st = 0 ∧ o = .ok ⟨none, none⟩ ∧ view t = []) ∨
    ∃ p fd, st.plugin = some p ∧ p.socket = some fd ∧
      ((o = .killed ∧ view t = []) ∨
       (∃ b : Bool, o = .killed ∧
          view t = [.sys ⟨.shutdown fd, b⟩, mark p.env .info (b! "pair session ended")]) ∨
       ∃ b c : Bool, o = .ok ⟨none, none⟩ ∧
          view t = [.sys ⟨.shutdown fd, b⟩, mark p.env .info (b! "pair session ended"), .sys ⟨.shutdown fd, c⟩]) :=
  coreClose_story hr

/-- **C66.**  No other callback leaves a lasting record. -/
theorem C66_others {rt : Rt} {c : SudoPair.Core.Call} {st : State} {o t} (hr : LRuns (Audit.Core.step rt c st) o t)
    (hc : c ≠ .close) (ho : ∀ a, c ≠ .open a) : records (view t) = [] := by
  have key : Faint (Audit.Core.step rt c st) := by
    cases c with
    | «open» a => exact absurd rfl (ho a)
    | close => exact absurd rfl hc
    | showVersion => exact allEnt_bind (faint_lift _) fun _ => allEnt_pure _
    | log f b => exact allEnt_bind (faint_log rt f b st) fun _ => allEnt_pure _
    | changeWinsize l c => exact allEnt_bind (faint_changeWinsize l c st) fun _ => allEnt_pure _
  rw [key.view hr]
  exact records_acts _

/-! ### Sessions recorded to have started and to have ended -/

theorem starts_append (t u : List Audit.Entry) : starts (t ++ u) = starts t + starts u := by
  simp [starts, records_append]
theorem ends_append (t u : List Audit.Entry) : ends (t ++ u) = ends t + ends u := by
  simp [ends, records_append]

theorem starts_messages (t : List Audit.Entry) : starts t = (messages t).countP (· = b! "pair session started") := by
  unfold starts messages
  rw [List.countP_map]; rfl
theorem ends_messages (t : List Audit.Entry) : ends t = (messages t).countP (· = b! "pair session ended") := by
  unfold ends messages
  rw [List.countP_map]; rfl

theorem live_le (st : State) : live st ≤ 1 := by
  unfold live
  split
  · split <;> simp
  · simp

theorem step_balance {rt : Rt} {c : SudoPair.Core.Call} {st : State} {o t}
    (hr : LRuns (Audit.Core.step rt c st) o t) :
    ends (view t) ≤ starts (view t) + live st ∧
    ∀ r st', o = .ok (r, st') → ends (view t) + live st' ≤ starts (view t) + live st := by
  by_cases hcl : c = .close
  · subst hcl
    replace hr : LRuns (do let st ← Audit.Core.close st; pure ((0 : Int), st)) o t := hr
    have key : ∀ {o t}, LRuns (Audit.Core.close st) o t → ends (view t) ≤ live st ∧
        ∀ st', o = .ok st' → live st' = 0 := by
      intro o t hc
      rcases C66_close hc with ⟨_, rfl, hv⟩ | ⟨p, fd, hp, hs, ⟨rfl, hv⟩ | ⟨b, rfl, hv⟩ | ⟨b, c, rfl, hv⟩⟩
      · rw [hv]
        exact ⟨Nat.zero_le _, fun st' h => by simp only [Out.ok.injEq] at h; subst h; rfl⟩
      · rw [hv]
        exact ⟨Nat.zero_le _, fun st' h => absurd h (by simp)⟩
      · rw [hv]
        exact ⟨by simp [live, hp, hs, ends_messages, messages, records, mark],
          fun st' h => absurd h (by simp)⟩
      · rw [hv]
        exact ⟨by simp [live, hp, hs, ends_messages, messages, records, mark],
          fun st' h => by simp only [Out.ok.injEq] at h; subst h; rfl⟩
    inv LRuns.bind hr with ⟨st1, t1, t2, h1, hr, rfl⟩ | ⟨rfl, h1⟩ | ⟨rfl, h1⟩
    · obtain ⟨rfl, rfl⟩ := hr.pure
      rw [List.append_nil]
      have := key h1
      refine ⟨by omega, fun r st' h => ?_⟩
      simp only [Out.ok.injEq, Prod.mk.injEq] at h
      have h0 := this.2 st' (by rw [h.2])
      omega
    · have := key h1; exact ⟨by omega, fun _ _ h => absurd h (by simp)⟩
    · have := key h1; exact ⟨by omega, fun _ _ h => absurd h (by simp)⟩
  by_cases hop : ∀ a, c ≠ .open a
  · have h0 := C66_others hr hcl hop
    have h1 : ends (view t) = 0 := by unfold ends; rw [h0]; rfl
    refine ⟨by omega, fun r st' h => ?_⟩
    have : st' = st := by
      have hr := hr.erase
      rw [erase_step, h] at hr
      cases c with
      | «open» a => exact absurd rfl (hop a)
      | close => exact absurd rfl hcl
      | showVersion =>
        rcases Runs.bind (show Runs (do let r ← SudoPair.Core.showVersion st; pure (r, st)) _ _ from hr) with ⟨_, _, _, _, h, _⟩ | ⟨h, _⟩ | ⟨h, _⟩
        · have := h.pure.1; simp only [Out.ok.injEq, Prod.mk.injEq] at this; exact this.2
        · exact absurd h (by simp)
        · exact absurd h (by simp)
      | log f b =>
        rcases Runs.bind (show Runs (do let r ← SudoPair.Core.log rt f b st; pure (r, st)) _ _ from hr) with ⟨_, _, _, _, h, _⟩ | ⟨h, _⟩ | ⟨h, _⟩
        · have := h.pure.1; simp only [Out.ok.injEq, Prod.mk.injEq] at this; exact this.2
        · exact absurd h (by simp)
        · exact absurd h (by simp)
      | changeWinsize l c =>
        rcases Runs.bind (show Runs (do let r ← SudoPair.Core.changeWinsize l c st; pure (r, st)) _ _ from hr) with ⟨_, _, _, _, h, _⟩ | ⟨h, _⟩ | ⟨h, _⟩
        · have := h.pure.1; simp only [Out.ok.injEq, Prod.mk.injEq] at this; exact this.2
        · exact absurd h (by simp)
        · exact absurd h (by simp)
    subst this
    omega
  · obtain ⟨a, rfl⟩ : ∃ a, c = .open a := by
      cases c <;> first | exact ⟨_, rfl⟩ | exact absurd (fun a => by simp) hop
    replace hr : LRuns (Audit.Core.open rt a st) o t := hr
    have ho := coreOpened_runs hr
    have he := hr.erase
    rw [show L.erase (Audit.Core.open rt a st) = SudoPair.Core.open rt a st from erase_step rt (.open a) st] at he
    have he := coreOpen_runs he
    -- a refused opening changes no plugin
    have same : ∀ r st', r ≠ 1 → o = .ok (r, st') → live st' = live st := by
      rintro r st' hne rfl
      generalize events t = ev at he
      cases he <;> first | rfl | exact absurd rfl hne
    have quiet : records (view t) = [] → (∀ r st', o = .ok (r, st') → live st' = live st) →
        ends (view t) ≤ starts (view t) + live st ∧
        ∀ r st', o = .ok (r, st') → ends (view t) + live st' ≤ starts (view t) + live st := by
      intro h0 h1
      have : ends (view t) = 0 := by unfold ends; rw [h0]; rfl
      refine ⟨by omega, fun r st' h => ?_⟩
      have := h1 r st' h
      omega
    generalize view t = v at ho quiet
    cases ho with
    | rejected _ h hno =>
      refine quiet (records_acts h) ?_
      rintro r st' rfl
      generalize events t = ev at he
      cases he <;> try rfl
      rename_i h1 _ _ _
      exact absurd h1 (hno _)
    | empty env0 _ h1 h2 =>
      refine quiet rfl ?_
      rintro r st' rfl
      generalize events t = ev at he
      cases he <;> try rfl
      rename_i h4 h5 _ _
      rw [h1] at h4; cases h4
      exact absurd h2 h5
    | undecided env0 _ h1 h2 h3 =>
      refine quiet rfl ?_
      rintro r st' rfl
      generalize events t = ev at he
      cases he <;> try rfl
      rename_i h4 _ _ h5
      rw [h1] at h4; cases h4
      cases h5 with
      | exempt h => rw [h3] at h; exact absurd h (by simp)
      | approved h => rw [h3] at h; exact absurd h (by simp)
    | exempt env0 st' h1 h2 h3 h4 =>
      have h0 : ends [mark (effEnv st env0) .info (b! "pair session exempt from pairing requirements")] = 0 := by
        simp [ends_messages, messages_mark, messages_nil]
      rw [h0]
      refine ⟨by omega, fun r st'' h => ?_⟩
      simp only [Out.ok.injEq, Prod.mk.injEq] at h
      obtain ⟨_, rfl⟩ := h
      have : live st' ≤ live st := by
        cases hp : st'.plugin with
        | none => simp [live, hp]
        | some q =>
          rcases h4 q hp with h | h
          · simp [live, hp, h]
          · simp [live, hp, h]
      omega
    | told env0 _ _ h1 h2 h3 hs =>
      rcases story_messages hs with ⟨hm, _, _⟩ | ⟨hne, hm⟩
      · have h0 : ends v = 0 := by rw [ends_messages, hm]; decide
        have h1 : starts v = 1 := by rw [starts_messages, hm]; decide
        refine ⟨by omega, fun r st' _ => ?_⟩
        have := live_le st'
        omega
      · have h0 : ends v = 0 := by
          rw [ends_messages]
          simp only [List.mem_cons, List.not_mem_nil, or_false] at hm
          rcases hm with hm | hm | hm | hm | hm <;> rw [hm] <;> decide
        refine ⟨by omega, fun r st' h => ?_⟩
        have := same r st' (by rintro rfl; rw [h] at hne; exact hne rfl) h
        omega

/-- **C66.**  Over every history of callbacks: no more sessions are recorded to have ended than to have started
(counting one that may have been there at the beginning); and while a pair is connected, strictly fewer.  (Not
equal: a session that is never closed, or that is approved while another one is open, is not recorded to end.) -/
theorem C66_balance {rt : Rt} {cs : List SudoPair.Core.Call} {st : State} {o t}
    (hr : LRuns (Audit.Core.run rt cs st) o t) :
    ends (view t) ≤ starts (view t) + live st ∧
    ∀ rs st', o = .ok (rs, st') → ends (view t) + live st' ≤ starts (view t) + live st := by
  induction cs generalizing st o t with
  | nil =>
    obtain ⟨rfl, rfl⟩ := hr.pure
    refine ⟨Nat.zero_le _, fun rs st' h => ?_⟩
    simp only [Out.ok.injEq, Prod.mk.injEq] at h
    rw [h.2]
    exact Nat.le_refl _
  | cons c cs ih =>
    unfold Audit.Core.run at hr
    inv LRuns.bind hr with ⟨⟨r, st1⟩, t1, t2, h1, hr, rfl⟩ | ⟨rfl, h1⟩ | ⟨rfl, h1⟩
    · have hb := step_balance h1
      have hb2 := hb.2 r st1 rfl
      simp only at hr
      rw [view_append, ends_append, starts_append]
      inv LRuns.bind hr with ⟨⟨rs, st2⟩, t3, t4, h2, hr, rfl⟩ | ⟨rfl, h2⟩ | ⟨rfl, h2⟩
      · obtain ⟨rfl, rfl⟩ := hr.pure
        rw [List.append_nil]
        have hi := ih h2
        refine ⟨by omega, fun rs' st' h => ?_⟩
        simp only [Out.ok.injEq, Prod.mk.injEq] at h
        have := hi.2 rs st' (by rw [h.2])
        omega
      · have hi := ih h2; exact ⟨by omega, fun _ _ h => absurd h (by simp)⟩
      · have hi := ih h2; exact ⟨by omega, fun _ _ h => absurd h (by simp)⟩
    · have hb := step_balance h1; exact ⟨hb.1, fun _ _ h => absurd h (by simp)⟩
    · have hb := step_balance h1; exact ⟨hb.1, fun _ _ h => absurd h (by simp)⟩

/-! ### Who it is about -/

namespace Audit

/-- Every record is about the session of `E`. -/
abbrev Signed (E : IoEnv) (m : L α) : Prop :=
  AllEnt (fun e => ∀ r, e = .note r → ∃ own, r.fields = own ++ identity E) m

variable {α : Type} {E : IoEnv}

theorem signed_lift (m : M α) : Signed E (L.lift m) := by
  intro s e he r hr
  obtain ⟨x, _, rfl⟩ := List.mem_map.1 he
  exact absurd hr (by simp)

theorem signed_say {p : Pair} (hp : p.env = E) (l : Level) (m : Bytes) (own : Fields) : Signed E (say p l m own) :=
  allEnt_say (fun r hr => by cases hr; exact ⟨own, by rw [← hp]; rfl⟩)

theorem signed_connecting {p : Pair} (hp : p.env = E) (l : Level) (m : Bytes) (own : Fields) :
    Signed E (L.say (connecting p) l m own) :=
  allEnt_say (fun r hr => by
    cases hr
    exact ⟨own ++ [(b! "socket_path", .text p.socketPath)], by rw [← hp, List.append_assoc]; rfl⟩)

theorem signed_isExempt (d : Bool) {p : Pair} (hp : p.env = E) : Signed E (isExempt d p) := by
  have stop : ∀ (m : Bytes) (own : Fields) (b : Bool), Signed E (do say p .debug m own; pure b) :=
    fun m own b => allEnt_bind (signed_say hp _ _ _) fun _ => allEnt_pure _
  unfold isExempt
  exact allEnt_ite (stop _ _ _) (allEnt_bind (signed_lift _) fun _ => allEnt_ite (stop _ _ _) (allEnt_ite (stop _ _ _)
    (allEnt_ite (stop _ _ _) (allEnt_ite (stop _ _ _) (allEnt_bind (signed_lift _) fun _ =>
      allEnt_ite (stop _ _ _) (stop _ _ _))))))

theorem signed_exiting {p : Pair} (hp : p.env = E) : Signed E (exiting p) := signed_say hp _ _ _

theorem signed_remotePairPrompt {p : Pair} (hp : p.env = E) (spec : TemplateSpec) (fd : Nat) :
    Signed E (remotePairPrompt p spec fd) := by
  unfold remotePairPrompt
  refine allEnt_bind (signed_lift _) fun _ => allEnt_bind (signed_say hp _ _ _) fun _ =>
    allEnt_bind (signed_say hp _ _ _) fun _ => allEnt_bind (signed_lift _) fun _ =>
    allEnt_ite (allEnt_bind (signed_lift _) fun _ => allEnt_ite ?_ (allEnt_pure _)) (allEnt_pure _)
  refine allEnt_bind (signed_say hp _ _ _) fun _ => allEnt_bind (signed_say hp _ _ _) fun _ =>
    allEnt_bind (signed_lift _) fun r => ?_
  cases Pair.responseByte r with
  | none => exact allEnt_pure _
  | some b =>
    exact allEnt_bind (signed_say hp _ _ _) fun _ => allEnt_bind (signed_lift _) fun _ =>
      allEnt_bind (signed_lift _) fun _ => allEnt_ite
        (allEnt_bind (signed_say hp _ _ _) fun _ => allEnt_pure _)
        (allEnt_bind (signed_say hp _ _ _) fun _ => allEnt_pure _)

theorem signed_openPair (rt : Rt) {p : Pair} (hp : p.env = E) : Signed E (openPair rt p) := by
  unfold openPair
  refine allEnt_bind (allEnt_onUnwind (signed_isExempt _ hp) (signed_exiting hp)) fun _ =>
    allEnt_ite (allEnt_bind (signed_say hp _ _ _) fun _ => allEnt_pure _)
      (allEnt_bind (signed_say hp _ _ _) fun _ => allEnt_ite
        (allEnt_bind (signed_say hp _ _ _) fun _ => allEnt_bind (signed_exiting hp) fun _ => allEnt_pure _) ?_)
  refine allEnt_bind (allEnt_onUnwind ?_ (signed_exiting hp)) fun _ =>
    allEnt_bind (allEnt_onUnwind ?_ (signed_exiting hp)) fun r => ?_
  · unfold localPairPrompt
    exact allEnt_bind (signed_lift _) fun _ => allEnt_bind (signed_say hp _ _ _) fun _ =>
      allEnt_bind (signed_say hp _ _ _) fun _ => allEnt_bind (signed_lift _) fun _ =>
      allEnt_ite (signed_say hp _ _ _) (allEnt_bind (signed_lift _) fun _ => signed_say hp _ _ _)
  · unfold remotePairConnect
    refine allEnt_bind (allEnt_ite (allEnt_bind (signed_lift _) fun _ => signed_connecting hp _ _ _) (allEnt_pure _)) fun _ =>
      allEnt_bind (signed_connecting hp _ _ _) fun _ => allEnt_bind (signed_lift _) fun _ =>
      allEnt_bind (signed_lift _) fun r => ?_
    cases r with
    | none => exact allEnt_pure _
    | some c => exact allEnt_bind (signed_connecting hp _ _ _) fun _ => allEnt_pure _
  · cases r with
    | error e => exact allEnt_bind (signed_exiting hp) fun _ => allEnt_pure _
    | ok fd =>
      refine allEnt_onUnwind (allEnt_bind (signed_remotePairPrompt hp _ _) fun r => ?_)
        (allEnt_bind (signed_exiting hp) fun _ => signed_lift _)
      cases r with
      | error e => exact allEnt_bind (signed_exiting hp) fun _ => allEnt_bind (signed_lift _) fun _ => allEnt_pure _
      | ok u => exact allEnt_bind (signed_say hp _ _ _) fun _ => allEnt_pure _

theorem signed_logOutput {p : Pair} (hp : p.env = E) (b : Bytes) : Signed E (logOutput p b) := by
  unfold logOutput
  refine allEnt_bind (signed_lift _) fun r => ?_
  cases r with
  | error e => exact allEnt_pure _
  | ok u => exact allEnt_bind (signed_say hp _ _ _) fun _ => allEnt_pure _

theorem signed_handler (rt : Rt) {p : Pair} (hp : p.env = E) (b : Bytes) (f : Facility) :
    Signed E (handler rt p b f) := by
  cases f
  · exact allEnt_pure _
  · exact signed_logOutput hp b
  · exact allEnt_bind (signed_isExempt _ hp) fun _ => allEnt_ite (allEnt_pure _) (allEnt_pure _)
  · exact signed_logOutput hp b
  · exact signed_logOutput hp b

end Audit

theorem lift_some_bind {α β : Type} (a : α) (f : α → L β) : (L.lift (M.ofOption (some a)) >>= f) = f a := rfl

/-- The one record made before the session's logger exists. -/
def initializing : Record := ⟨.debug, b! "plugin initializing", Audit.root⟩

/-- **C66.**  Every record of `open` but the first says who wants to run what as whom: it carries the keys of
`identity`, with the values of the session's environment. -/
theorem C66_identity {rt : Rt} {a : OpenArgs} {st : State} {o t} (hr : LRuns (Audit.Core.open rt a st) o t)
    (r : Record) (hm : Audit.Entry.note r ∈ t) : r = initializing ∨
    ∃ env0 own, IoEnv.new rt a = some (.ok env0) ∧ r.fields = own ++ identity (effEnv st env0) := by
  have key : ∀ {E : IoEnv} {o t}, LRuns (Audit.Core.makePlugin rt a.hasPrintf E) o t →
      (∀ q, o = .ok (.ok q) → q.env = E) ∧
      (Audit.Entry.note r ∈ t → r = initializing ∨ ∃ own, r.fields = own ++ identity E) := by
    intro E o t h
    unfold Audit.Core.makePlugin at h
    split at h
    · obtain ⟨rfl, rfl⟩ := h.pure
      exact ⟨fun q h => absurd h (by simp), fun h => absurd h (by simp)⟩
    have sgn : ∀ {o t}, LRuns (Audit.open rt E) o t → Audit.Entry.note r ∈ t →
        r = initializing ∨ ∃ own, r.fields = own ++ identity E := by
      intro o t h hm
      unfold Audit.open at h
      simp only at h
      inv LRuns.say_bind h with ⟨t1, h, rfl⟩
      inv LRuns.psay_bind h with ⟨t2, h, rfl⟩
      rcases List.mem_cons.1 hm with hm | hm
      · simp only [Audit.Entry.note.injEq] at hm
        exact Or.inl hm
      rcases List.mem_cons.1 hm with hm | hm
      · simp only [Audit.Entry.note.injEq] at hm
        exact Or.inr ⟨_, by rw [hm]; rfl⟩
      · exact Or.inr ((signed_openPair rt rfl).of h _ hm r rfl)
    inv LRuns.bind h with ⟨x, t1, t2, h1, h, rfl⟩ | ⟨rfl, h1⟩ | ⟨rfl, h1⟩
    · rcases x with e | p
      · simp only at h
        have : Audit.Entry.note r ∉ t2 := by
          intro hm
          have : AllEnt (fun e => ∀ r, e ≠ Audit.Entry.note r) (do
              let _ ← L.lift ((PrintFacility.stderr a.hasPrintf).writeError e.display none)
              pure (Except.error SudoPair.Core.OPEN_DENY : Except Int Pair)) := by
            refine allEnt_bind ?_ fun _ => allEnt_pure _
            intro s e he r hr
            obtain ⟨x, _, rfl⟩ := List.mem_map.1 he
            exact absurd hr (by simp)
          exact this.of h _ hm r rfl
        refine ⟨?_, fun hm => ?_⟩
        · rintro q rfl
          rcases h.lift_bind with ⟨_, _, _, _, h, _⟩ | ⟨h, _⟩ | ⟨h, _⟩
          · exact absurd h.pure.1 (by simp)
          · exact absurd h (by simp)
          · exact absurd h (by simp)
        · rcases List.mem_append.1 hm with hm | hm
          · exact sgn h1 hm
          · exact absurd hm this
      · simp only at h
        obtain ⟨rfl, rfl⟩ := h.pure
        rw [List.append_nil]
        refine ⟨fun q hq => ?_, sgn h1⟩
        simp only [Out.ok.injEq, Except.ok.injEq] at hq
        subst hq
        have ho := audit_open_runs h1
        generalize view t1 = v at ho
        cases ho with
        | exempt h => rfl
        | refused _ _ _ h _ => rcases h with h | h | ⟨_, h⟩ <;> exact absurd h (by simp)
        | granted fd _ h _ => rfl
    · exact ⟨fun q h => absurd h (by simp), sgn h1⟩
    · exact ⟨fun q h => absurd h (by simp), sgn h1⟩
  unfold Audit.Core.open at hr
  have noteActs : ∀ h : Hist, Audit.Entry.note r ∉ acts h := by
    intro h hm
    obtain ⟨x, _, h⟩ := List.mem_map.1 hm
    exact absurd h (by simp)
  inv LRuns.lift_bind hr with ⟨x, h1, t1, h, hr, rfl⟩ | ⟨rfl, h1, h, rfl⟩ | ⟨rfl, h1, h, rfl⟩
  case inr.inl => exact absurd hm (noteActs _)
  case inr.inr => exact absurd hm (noteActs _)
  rcases List.mem_append.1 hm with hm | hm
  · exact absurd hm (noteActs _)
  rcases x with _ | _ | env0
  · obtain ⟨rfl, rfl⟩ := hr.pure; exact absurd hm (by simp)
  · obtain ⟨rfl, rfl⟩ := hr.pure; exact absurd hm (by simp)
  have hn : IoEnv.new rt a = some (.ok env0) := by
    rcases h.catchUnwind with ⟨y, h2, h3⟩ | ⟨h2, _⟩ | ⟨h2, _⟩
    · simp only [Out.ok.injEq, Option.some.injEq] at h2
      subst h2
      unfold SudoPair.Core.makeEnv at h3
      cases hn : IoEnv.new rt a with
      | none =>
        rw [hn] at h3
        rcases h3.ofOption_bind with ⟨_, h, _⟩ | ⟨_, h, _⟩ <;> exact absurd h (by simp)
      | some y =>
        rw [hn, ofOption_some_bind] at h3
        cases y with
        | ok env1 =>
          have := h3.pure.1
          simp only [Out.ok.injEq, Except.ok.injEq] at this
          rw [this]
        | error e =>
          simp only at h3
          rcases h3.bind with ⟨_, _, _, _, h, _⟩ | ⟨h, _⟩ | ⟨h, _⟩
          · exact absurd h.pure.1 (by simp)
          · exact absurd h (by simp)
          · exact absurd h (by simp)
    · exact absurd h2 (by simp)
    · exact absurd h2 (by simp)
  clear h
  simp only at hr
  have done : ∀ {E : IoEnv}, E = effEnv st env0 → (r = initializing ∨ ∃ own, r.fields = own ++ identity E) →
      r = initializing ∨ ∃ env0 own, IoEnv.new rt a = some (.ok env0) ∧
        r.fields = own ++ identity (effEnv st env0) := by
    rintro E rfl (h | ⟨own, h⟩)
    · exact Or.inl h
    · exact Or.inr ⟨env0, own, hn, h⟩
  generalize hE : st.env.getD env0 = E at hr
  have hE : E = effEnv st env0 := hE.symm
  inv LRuns.bind hr with ⟨x, t2, t3, h2, hr, rfl⟩ | ⟨rfl, h2⟩ | ⟨rfl, h2⟩
  case inl.inr.some.ok.inr.inl =>
    rcases h2.catchUnwind with ⟨_, h, _⟩ | ⟨h, _⟩ | ⟨h, _⟩ <;> exact absurd h (by simp)
  case inl.inr.some.ok.inr.inr =>
    rcases h2.catchUnwind with ⟨_, h, _⟩ | ⟨h, _⟩ | ⟨_, h⟩
    · exact absurd h (by simp)
    · exact absurd h (by simp)
    · exact done hE ((key h).2 hm)
  have fst : Audit.Entry.note r ∈ t2 → r = initializing ∨ ∃ own, r.fields = own ++ identity E := by
    intro hm
    rcases h2.catchUnwind with ⟨_, _, h⟩ | ⟨_, h⟩ | ⟨_, h⟩ <;> exact (key h).2 hm
  rcases List.mem_append.1 hm with hm | hm
  · exact done hE (fst hm)
  rcases x with _ | _ | p
  · obtain ⟨rfl, rfl⟩ := hr.pure; exact absurd hm (by simp)
  · obtain ⟨rfl, rfl⟩ := hr.pure; exact absurd hm (by simp)
  have hpe : p.env = E := by
    rcases h2.catchUnwind with ⟨y, h, h3⟩ | ⟨h, _⟩ | ⟨h, _⟩
    · simp only [Out.ok.injEq, Option.some.injEq] at h
      exact (key h3).1 p (by rw [h])
    · exact absurd h (by simp)
    · exact absurd h (by simp)
  simp only at hr
  cases hp : st.plugin with
  | none =>
    rw [hp] at hr
    obtain ⟨rfl, rfl⟩ := hr.pure; exact absurd hm (by simp)
  | some q =>
    rw [hp] at hr
    simp only at hr
    have : Signed E (do Audit.drop p; pure (SudoPair.Core.OPEN_OK, ({ env := some E, plugin := some q } : State))) := by
      refine allEnt_bind ?_ fun _ => allEnt_pure _
      exact allEnt_bind (signed_exiting hpe) fun _ => signed_lift _
    exact done hE (Or.inr (this.of hr _ hm r rfl))

/-- **C66.**  Every record of another callback carries the identity of the session in progress. -/
theorem C66_identity_later {rt : Rt} {c : SudoPair.Core.Call} {st : State} {o t}
    (hr : LRuns (Audit.Core.step rt c st) o t) (hc : ∀ a, c ≠ .open a) (r : Record) (hm : Audit.Entry.note r ∈ t) :
    ∃ p own, st.plugin = some p ∧ r.fields = own ++ identity p.env := by
  have key : ∀ {α : Type} {m : L α} {o t}, LRuns m o t → .note r ∈ t →
      (∀ p, st.plugin = some p → Signed p.env m) → (st.plugin = none → AllEnt (fun e => ∀ r, e ≠ .note r) m) →
      ∃ p own, st.plugin = some p ∧ r.fields = own ++ identity p.env := by
    intro α m o t h hm h1 h2
    cases hp : st.plugin with
    | none => exact absurd rfl ((h2 hp).of h _ hm r)
    | some p =>
      obtain ⟨own, h⟩ := (h1 p hp).of h _ hm r rfl
      exact ⟨p, own, rfl, h⟩
  have mute : ∀ {α : Type} (m : M α), AllEnt (fun e => ∀ r, e ≠ .note r) (L.lift m) := by
    intro α m s e he r hr
    obtain ⟨x, _, rfl⟩ := List.mem_map.1 he
    exact absurd hr (by simp)
  have gone : ∀ {α β : Type} (f : α → L β), AllEnt (fun e => ∀ r, e ≠ .note r)
      (L.lift (M.ofOption none) >>= f) := by
    intro α β f s e he
    exact absurd he (by simp [L.bind_def, L.lift, M.ofOption, M.panic])
  cases c with
  | «open» a => exact absurd rfl (hc a)
  | close =>
    refine key (show LRuns (do let st ← Audit.Core.close st; pure ((0 : Int), st)) o t from hr) hm ?_ ?_
    · intro p hp
      refine allEnt_bind ?_ fun _ => allEnt_pure _
      unfold Audit.Core.close
      rw [hp]
      refine allEnt_bind ?_ fun _ => allEnt_pure _
      unfold Audit.close
      cases p.socket with
      | none => exact signed_exiting rfl
      | some fd =>
        exact allEnt_bind (signed_say rfl _ _ _) fun _ => allEnt_bind (signed_lift _) fun _ =>
          allEnt_bind (signed_say rfl _ _ _) fun _ => allEnt_bind (signed_lift _) fun _ => signed_exiting rfl
    · intro hp
      refine allEnt_bind ?_ fun _ => allEnt_pure _
      unfold Audit.Core.close
      rw [hp]
      exact allEnt_pure _
  | showVersion =>
    refine key (show LRuns (do let r ← L.lift (SudoPair.Core.showVersion st); pure (r, st)) o t from hr) hm ?_ ?_
    · exact fun p hp => allEnt_bind (signed_lift _) fun _ => allEnt_pure _
    · exact fun hp => allEnt_bind (mute _) fun _ => allEnt_pure _
  | log f b =>
    refine key (show LRuns (do let r ← Audit.Core.log rt f b st; pure (r, st)) o t from hr) hm ?_ ?_
    · intro p hp
      refine allEnt_bind ?_ fun _ => allEnt_pure _
      unfold Audit.Core.log
      rw [hp]
      refine allEnt_bind (allEnt_catchUnwind (allEnt_bind (signed_lift _) fun _ => ?_)) fun _ => allEnt_pure _
      rw [lift_some_bind]
      exact allEnt_ite (allEnt_pure _) (allEnt_bind (signed_handler rt rfl b f) fun _ => signed_lift _)
    · intro hp
      refine allEnt_bind ?_ fun _ => allEnt_pure _
      unfold Audit.Core.log
      rw [hp]
      exact allEnt_bind (allEnt_catchUnwind (allEnt_bind (mute _) fun _ => gone _)) fun _ => allEnt_pure _
  | changeWinsize l c =>
    refine key (show LRuns (do let r ← Audit.Core.changeWinsize l c st; pure (r, st)) o t from hr) hm ?_ ?_
    · intro p hp
      refine allEnt_bind ?_ fun _ => allEnt_pure _
      unfold Audit.Core.changeWinsize
      rw [hp]
      refine allEnt_bind (allEnt_catchUnwind (allEnt_bind (signed_lift _) fun _ => ?_)) fun _ => allEnt_pure _
      rw [lift_some_bind]
      exact allEnt_bind (signed_logOutput rfl _) fun _ => signed_lift _
    · intro hp
      refine allEnt_bind ?_ fun _ => allEnt_pure _
      unfold Audit.Core.changeWinsize
      rw [hp]
      exact allEnt_bind (allEnt_catchUnwind (allEnt_bind (mute _) fun _ => gone _)) fun _ => allEnt_pure _

/-- **C66.**  The decision about a session is recorded with its reason: the first of `reasons` that holds, and the
values that go with it; and it is a decision for an exemption unless none but the last one does. -/
theorem C66_reason {debug : Bool} {p : Pair} {b : Bool} {t} (hr : LRuns (Audit.isExempt debug p) (.ok b) t) :
    ∃ msg own, t = [mark p.env .debug msg own] ∧ First (reasons p.env p.options) (msg, own) ∧
      (b = false ↔ msg = b! "sudo session requires a pair") := by
  have stop : ∀ {m : Bytes} {own : Fields} {c : Bool} {t},
      LRuns (do Audit.say p .debug m own; pure c) (.ok b) t →
      b = c ∧ t = [.note ⟨.debug, m, own ++ session p.env⟩] := by
    intro m own c t h
    inv LRuns.psay_bind h with ⟨t', h, rfl⟩
    obtain ⟨hb, rfl⟩ := h.pure
    simp only [Out.ok.injEq] at hb
    exact ⟨hb, rfl⟩
  unfold Audit.isExempt at hr
  split at hr
  · rename_i h1
    obtain ⟨rfl, rfl⟩ := stop hr
    exact ⟨_, _, rfl, .here _ _ _ ((fromRoot_iff p).1 h1), by simp⟩
  rename_i h1
  have n1 := fun h => h1 ((fromRoot_iff p).2 h)
  cases hth : p.toThemselves debug with
  | none =>
    rw [hth] at hr
    rcases hr.lift_bind with ⟨_, _, _, h, _⟩ | ⟨h, _⟩ | ⟨h, _⟩
    · exact absurd h.panic.1 (by simp)
    · exact absurd h (by simp)
    · exact absurd h (by simp)
  | some c =>
  rw [hth, lift_some_bind] at hr
  split at hr
  · rename_i hc
    subst hc
    obtain ⟨rfl, rfl⟩ := stop hr
    refine ⟨_, _, rfl, .later _ _ _ _ n1 (.here _ _ _ ((themselves_iff p).1 ?_)), by simp⟩
    unfold Pair.toThemselves at hth
    split at hth
    · assumption
    · exact absurd hth (by simp)
  rename_i hc
  have n2 : ¬ Themselves p.env := by
    intro h
    have h := (themselves_iff p).2 h
    unfold Pair.toThemselves at hth
    rw [if_pos h] at hth
    split at hth
    · split at hth
      · exact absurd hth (by simp)
      · split at hth
        · simp only [Option.some.injEq] at hth; exact hc hth.symm
        · exact absurd hth (by simp)
    · simp only [Option.some.injEq] at hth; exact hc hth.symm
  split at hr
  · rename_i h3
    obtain ⟨rfl, rfl⟩ := stop hr
    exact ⟨_, _, rfl, .later _ _ _ _ n1 (.later _ _ _ _ n2 (.here _ _ _ ((C47_same_path _).1 h3))), by simp⟩
  rename_i h3
  have n3 := fun h => h3 ((C47_same_path _).2 h)
  split at hr
  · rename_i h4
    obtain ⟨rfl, rfl⟩ := stop hr
    exact ⟨_, _, rfl, .later _ _ _ _ n1 (.later _ _ _ _ n2 (.later _ _ _ _ n3
      (.here _ _ _ ((unlogged_iff p).1 h4)))), by simp⟩
  rename_i h4
  have n4 := fun h => h4 ((unlogged_iff p).2 h)
  split at hr
  · rename_i h5
    obtain ⟨rfl, rfl⟩ := stop hr
    exact ⟨_, _, rfl, .later _ _ _ _ n1 (.later _ _ _ _ n2 (.later _ _ _ _ n3 (.later _ _ _ _ n4
      (.here _ _ _ ((fromExemptedGid_iff p).1 h5))))), by simp⟩
  rename_i h5
  have n5 := fun h => h5 ((fromExemptedGid_iff p).2 h)
  cases hg : p.toEnforcedGid debug with
  | none =>
    rw [hg] at hr
    rcases hr.lift_bind with ⟨_, _, _, h, _⟩ | ⟨h, _⟩ | ⟨h, _⟩
    · exact absurd h.panic.1 (by simp)
    · exact absurd h (by simp)
    · exact absurd h (by simp)
  | some d =>
  rw [hg, lift_some_bind] at hr
  have h6 := toEnforcedGid_iff hg
  split at hr
  · rename_i hd
    obtain ⟨rfl, rfl⟩ := stop hr
    refine ⟨_, _, rfl, .later _ _ _ _ n1 (.later _ _ _ _ n2 (.later _ _ _ _ n3 (.later _ _ _ _ n4
      (.later _ _ _ _ n5 (.here _ _ _ ?_))))), by simp⟩
    intro g h7 h8
    have := h6.2 ⟨g, h7, h8⟩
    simp [this] at hd
  · rename_i hd
    obtain ⟨rfl, rfl⟩ := stop hr
    refine ⟨_, _, rfl, .later _ _ _ _ n1 (.later _ _ _ _ n2 (.later _ _ _ _ n3 (.later _ _ _ _ n4
      (.later _ _ _ _ n5 (.later _ _ _ _ ?_ (.here _ _ _ trivial)))))), by simp⟩
    intro h7
    obtain ⟨g, h8, h9⟩ := h6.1 (by simpa using hd)
    exact h7 g h8 h9

/-! ### Examples -/

/-- The messages of the sample session: granted and closed; refused; and without a socket. -/
def sampleLog (s : Sched) : Option (List Int) × List Bytes :=
  let r := Audit.Core.run sampleRt [.open sampleArgs, .log .ttyout (b! "hi"), .close] ⟨none, none⟩ s
  (retsOf r.1, messages (view r.2.1))

/-- No pair, no session: everything works but `bind`. -/
def bindFails : Answer
  | .bind _ => .failed
  | c => coop 121 c

example : sampleLog (List.replicate 100 (coop 121)) =
    (some [1, 1, 0], grantedMessages ++ [b! "pair session ended"]) := by decide +kernel
example : sampleLog (List.replicate 100 (coop 110)) =
    (some [-1, 0, 0], [b! "pair session required", b! "socket waiting for pair to connect...", b! "socket connected",
      b! "remote pair declined session"]) := by decide +kernel
/-- The log goes silent: nothing is recorded after "waiting" when there is no socket to connect to. -/
example : sampleLog (List.replicate 100 bindFails) =
    (some [-1, 0, 0], [b! "pair session required", b! "socket waiting for pair to connect..."]) := by decide +kernel

/-- There is nobody to ask: the user stays the same and the policy changes the group. -/
def nobodyArgs : OpenArgs := { sampleArgs with
  commandInfo := some [b! "command=/bin/ls", b! "runas_uid=1000", b! "runas_gid=0", b! "runas_groups=0",
    b! "iolog_stdout=true"] }

/-- The hypotheses of C66_nobody are met, in all builds. -/
example : (∃ env, IoEnv.new sampleRt nobodyArgs = some (.ok env) ∧ env.commandInfo.command ≠ [] ∧
      ¬ Trips env (.ofMap env.pluginOptions) ∧ ¬ Exempt env (.ofMap env.pluginOptions) ∧ Nobody env) ∧
    (∀ maxLevel, ending (Audit.Core.open { sampleRt with maxLevel } nobodyArgs ⟨none, none⟩ (List.replicate 100 (coop 121))).1 = .refused) ∧
    (∀ maxLevel, messages (view (Audit.Core.open { sampleRt with maxLevel } nobodyArgs ⟨none, none⟩
        (List.replicate 100 (coop 121))).2.1) =
      b! "pair session required" :: if Detailed { sampleRt with maxLevel } then [] else [b! "socket waiting for pair to connect..."]) := by
  refine ⟨?_, by intro d; cases d <;> decide +kernel, by intro d; cases d <;> decide +kernel⟩
  refine ⟨_, rfl, by decide, ?_, ?_, by decide, by decide⟩
  · intro h
    exact absurd ((C50_trips (Pair.ofEnv _)).2 h) (by decide +kernel)
  · intro h
    exact absurd ((C04_release (Pair.ofEnv _)).2 h) (by decide +kernel)

/-- The hypotheses of C66_story and C66_messages hold of the sample session. -/
example : IoEnv.new sampleRt sampleArgs = some (.ok argsEnv) ∧
    ¬ (sampleRt.debug = true ∧ Trips argsEnv (.ofMap argsEnv.pluginOptions)) ∧
    ¬ Exempt argsEnv (.ofMap argsEnv.pluginOptions) := by
  refine ⟨argsEnv_new, fun h => absurd h.1 (by decide), fun h => ?_⟩
  exact absurd ((C04_release (Pair.ofEnv argsEnv)).2 h) (by decide +kernel)

/-- Those of C66_exempt hold of the same session without output logging, which leaves one record. -/
example :
    let env := { argsEnv with commandInfo := { argsEnv.commandInfo with
      iologTtyout := false, iologStdout := false, iologStderr := false } }
    Exempt env (.ofMap env.pluginOptions) := by
  exact (C04_release (Pair.ofEnv _)).1 (by decide +kernel)

/-- The records of the sample session carry its identity. -/
example : (records (view (Audit.Core.run sampleRt [.open sampleArgs] ⟨none, none⟩
      (List.replicate 100 (coop 121))).2.1)).map (·.fields) =
    [identity argsEnv,
     (b! "socket_path", .text (b! "/var/run/sudo_pair/1000.42.sock")) :: identity argsEnv,
     (b! "socket_path", .text (b! "/var/run/sudo_pair/1000.42.sock")) :: identity argsEnv,
     identity argsEnv, identity argsEnv] ∧
    identity argsEnv = [(b! "uid", .num 1000), (b! "runas_euid", .num 0), (b! "runas_egid", .num 0),
      (b! "command", .text (b! "/bin/ls")), (b! "args", .texts [b! "-l"]),
      (b! "plugin_name", .text (b! "sudo_pair")), (b! "plugin_version", .text (b! "1.2.0"))] := by decide +kernel

/-- Two sessions are approved one after the other without a `close` in between: the second is dropped, and no
end of it is recorded. -/
example :
    let r := Audit.Core.run sampleRt [.open sampleArgs, .open sampleArgs, .close] ⟨none, none⟩
      (List.replicate 100 (coop 121))
    starts (view r.2.1) = 2 ∧ ends (view r.2.1) = 1 := by decide +kernel

end SudoPair
