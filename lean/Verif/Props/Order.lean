import Verif.Props.SocketFs
import Verif.Spec.Order
/-
C54: the order of the interactions of `open`.
-/
namespace SudoPair
open Spec

/-- The plan of a session. -/
def planOf (p : Pair) (mode : Nat) : Plan where
  dir := (Path.parent p.socketPath).getD []
  path := p.socketPath
  uid := p.socketUid
  gid := p.socketGid
  mode := mode
  promptFile := p.options.pairPromptPath
  prompt := p.promptText

/-- `P` is the plan of the session of `env`, in terms of its environment and the plugin's options: the socket is
`<uid>.<pid>.sock` in `socket_dir`; it is given to the target user, or to the target group of `-g`. -/
structure PlanOf (env : IoEnv) (P : Plan) : Prop where
  path   : P.path = sessionPath env
  dir    : DirPart P.path (optionsOf env).socketDir P.dir
  uid    : P.uid = if env.userInfo.uid = env.commandInfo.runasEuid then noId else env.commandInfo.runasEuid
  gid    : P.gid = if env.settings.runasGroup = none then noId else env.commandInfo.runasEgid
  mode   : P.mode = if env.userInfo.uid ≠ env.commandInfo.runasEuid then 0o200
    else if env.settings.runasGroup ≠ none then 0o020 else 0
  file   : P.promptFile = (optionsOf env).pairPromptPath
  prompt : ∀ r, Expands 37 (promptVars (Pair.ofEnv env)) (r.getD (b! "%U@%h:%d$ %C\ny/n? [n]: ")) (P.prompt r)

theorem follow_append {P : Plan} : ∀ {a b ph}, P.follow ph (a ++ b) = (P.follow ph a).bind (P.follow · b)
  | [], _, _ => rfl
  | e :: a, b, ph => by
    simp only [List.cons_append, Plan.follow]
    cases P.next ph e with
    | none => rfl
    | some ph' => exact follow_append

theorem follow_trans {P : Plan} {a b ph ph' ph''} (h1 : P.follow ph a = some ph') (h2 : P.follow ph' b = some ph'') :
    P.follow ph (a ++ b) = some ph'' := by
  rw [follow_append, h1]; exact h2

theorem follow_cons {P : Plan} {e h ph ph' ph''} (h1 : P.next ph e = some ph') (h2 : P.follow ph' h = some ph'') :
    P.follow ph (e :: h) = some ph'' := by
  simp [Plan.follow, h1, h2]

theorem follow_quiet {P : Plan} : ∀ {h}, Quiet h → P.follow .start h = some .start
  | [], _ => rfl
  | ⟨c, r⟩ :: h, hq => by
    have h1 := hq ⟨c, r⟩ (by simp)
    have h2 : Quiet h := fun e he => hq e (by simp [he])
    cases c <;> first | exact False.elim h1 | exact follow_cons rfl (follow_quiet h2)

theorem follow_prints {P : Plan} : ∀ {h}, Prints h → P.follow .closed h = some .closed
  | [], _ => rfl
  | ⟨c, r⟩ :: h, hq => by
    have h1 := hq ⟨c, r⟩ (by simp)
    have h2 : Prints h := fun e he => hq e (by simp [he])
    cases c <;> first | exact False.elim h1 | exact follow_cons rfl (follow_prints h2)

/-- The phases in which only messages follow. -/
def Ended (ph : Phase) : Prop := ph = .start ∨ ph = .vetted ∨ ph = .closed

theorem follow_ended {P : Plan} {h ph} (he : Ended ph) (hp : Prints h) : ∃ ph', P.follow ph h = some ph' := by
  rcases he with rfl | rfl | rfl
  · exact ⟨_, follow_quiet hp.quiet⟩
  · cases h with
    | nil => exact ⟨_, rfl⟩
    | cons e h =>
      rcases e with ⟨c, r⟩
      have h1 := hp ⟨c, r⟩ (by simp)
      have h2 : Prints h := fun e he => hp e (by simp [he])
      cases c <;> first | exact False.elim h1 | exact ⟨_, follow_cons rfl (follow_prints h2)⟩
  · exact ⟨_, follow_prints hp⟩

variable {rt : Rt} {P : Plan}

theorem follow_vet {o h} (hd : ∀ d, Path.parent P.path = some d → d = P.dir) (hv : Vet rt P.path o h) :
    ∃ ph, P.follow .start h = some ph ∧ Ended ph ∧ (o = .ok true → ph = .vetted) := by
  cases hv with
  | none => exact ⟨.start, rfl, Or.inl rfl, by simp⟩
  | killed => exact ⟨.start, rfl, Or.inl rfl, by simp⟩
  | noStat h1 =>
    refine ⟨.closed, ?_, Or.inr (Or.inr rfl), by simp⟩
    simp [Plan.follow, Plan.next, hd _ h1]
  | bad h1 =>
    refine ⟨.vetted, ?_, Or.inr (Or.inl rfl), by simp⟩
    simp [Plan.follow, Plan.next, hd _ h1]
  | good h1 =>
    refine ⟨.vetted, ?_, Or.inr (Or.inl rfl), by simp⟩
    simp [Plan.follow, Plan.next, hd _ h1]

theorem follow_unlink {o h} (hu : Unlink P.path o h) : ∃ ph, P.follow .vetted h = some ph ∧
    (o = .ok true → ph = .clear) ∧ (o = .ok false → ph = .closed) := by
  cases hu with
  | killed => exact ⟨.vetted, rfl, by simp, by simp⟩
  | absent => exact ⟨.clear, by simp [Plan.follow, Plan.next], by simp, by simp⟩
  | foreign => exact ⟨.closed, by simp [Plan.follow, Plan.next], by simp, by simp⟩
  | killed' => exact ⟨.stale, by simp [Plan.follow, Plan.next], by simp, by simp⟩
  | removed b =>
    cases b
    · exact ⟨.closed, by simp [Plan.follow, Plan.next], by simp, by simp⟩
    · exact ⟨.clear, by simp [Plan.follow, Plan.next], by simp, by simp⟩

/-- The phases from which the socket file is removed. -/
def CanClean (P : Plan) (old : Nat) (c : Option Conn) (ph : Phase) : Prop :=
  ∀ r, P.next ph ⟨.metadata P.path, r⟩ = some (if r = some true then .leftover old c else .removed old c)

theorem canClean_over (old : Nat) (c : Option Conn) : CanClean P old c (.over old c) := by
  intro r; simp [Plan.next, cleanup]

theorem canClean_bound (old fd : Nat) : CanClean P old none (.bound old fd) := by
  intro r; simp [Plan.next, cleanup]

theorem follow_bindAcc {o h} (old : Nat) (hb : BindAcc rt P.path P.uid P.gid P.mode o h) :
    ∃ ph, P.follow (.masked old) h = some ph ∧ ∀ c, o = .ok c → CanClean P old c ph := by
  cases hb with
  | killed => exact ⟨_, rfl, by simp⟩
  | failed =>
    refine ⟨.over old none, by simp [Plan.follow, Plan.next], ?_⟩
    intro c hc; cases hc; exact canClean_over _ _
  | failLeft =>
    refine ⟨.over old none, by simp [Plan.follow, Plan.next], ?_⟩
    intro c hc; cases hc; exact canClean_over _ _
  | bound ha =>
    rename_i fd h
    cases ha with
    | nul =>
      refine ⟨.bound old fd, by simp [Plan.follow, Plan.next], ?_⟩
      intro c hc; cases hc; exact canClean_bound _ _
    | k0 => exact ⟨.bound old fd, by simp [Plan.follow, Plan.next], by simp⟩
    | chown =>
      refine ⟨.over old none, by simp [Plan.follow, Plan.next], ?_⟩
      intro c hc; cases hc; exact canClean_over _ _
    | k1 => exact ⟨.owned old fd, by simp [Plan.follow, Plan.next], by simp⟩
    | chmod =>
      refine ⟨.over old none, by simp [Plan.follow, Plan.next], ?_⟩
      intro c hc; cases hc; exact canClean_over _ _
    | fdset => exact ⟨.opened old fd, by simp [Plan.follow, Plan.next], by simp⟩
    | k2 => exact ⟨.opened old fd, by simp [Plan.follow, Plan.next], by simp⟩
    | selFail b =>
      refine ⟨.over old none, by simp [Plan.follow, Plan.next], ?_⟩
      intro c hc; cases hc; exact canClean_over _ _
    | selPanic r h1 h2 => exact ⟨.over old none, by simp [Plan.follow, Plan.next, h1], by simp⟩
    | k3 => exact ⟨.ready old fd, by simp [Plan.follow, Plan.next], by simp⟩
    | done c =>
      refine ⟨.over old c, by simp [Plan.follow, Plan.next], ?_⟩
      intro c hc; cases hc; exact canClean_over _ _

theorem follow_cleanup {o h old c ph} (hc : CanClean P old c ph) (hu : Unlink P.path o h) :
    ∃ ph', P.follow ph h = some ph' ∧ ∀ b, o = .ok b → ph' = .removed old c := by
  cases hu with
  | killed => exact ⟨ph, rfl, by simp⟩
  | absent => exact ⟨.removed old c, follow_cons (hc none) rfl, by simp⟩
  | foreign => exact ⟨.removed old c, follow_cons (hc (some false)) rfl, by simp⟩
  | killed' => exact ⟨.leftover old c, follow_cons (hc (some true)) rfl, by simp⟩
  | removed b =>
    exact ⟨.removed old c, follow_cons (hc (some true)) (by simp [Plan.follow, Plan.next]), by simp⟩

/-- `Socket::open` keeps the order. -/
theorem follow_sockOpen {o h} (hd : ∀ d, Path.parent P.path = some d → d = P.dir)
    (hs : SockOpen rt P.path P.uid P.gid P.mode o h) :
    ∃ ph, P.follow .start h = some ph ∧ (o = .ok none → Ended ph) ∧
      ∀ conn, o = .ok (some conn) → ph = .connected conn := by
  have pre : ∀ {h1 h2}, Vet rt P.path (.ok true) h1 → Unlink P.path (.ok true) h2 →
      ∀ {k ph}, P.follow .clear k = some ph → P.follow .start (h1 ++ (h2 ++ k)) = some ph := by
    intro h1 h2 v w k ph hk
    obtain ⟨p1, e1, _, e2⟩ := follow_vet hd v
    rw [e2 rfl] at e1
    obtain ⟨p2, e3, e4, _⟩ := follow_unlink w
    rw [e4 rfl] at e3
    exact follow_trans e1 (follow_trans e3 hk)
  have mk : ∀ {old k ph}, P.follow (.masked old) k = some ph →
      P.follow .clear (⟨.umask 0o777, old⟩ :: k) = some ph :=
    fun hk => follow_cons (by simp [Plan.next]) hk
  cases hs with
  | vetErr v =>
    obtain ⟨p1, e1, e2, _⟩ := follow_vet hd v
    exact ⟨p1, e1, fun _ => e2, by simp⟩
  | vetKilled v =>
    obtain ⟨p1, e1, e2, _⟩ := follow_vet hd v
    exact ⟨p1, e1, fun _ => e2, by simp⟩
  | unlErr v w =>
    obtain ⟨p1, e1, _, e2⟩ := follow_vet hd v
    rw [e2 rfl] at e1
    obtain ⟨p2, e3, _, e4⟩ := follow_unlink w
    exact ⟨p2, follow_trans e1 e3, fun _ => Or.inr (Or.inr (e4 rfl)), by simp⟩
  | unlKilled v w =>
    obtain ⟨p1, e1, _, e2⟩ := follow_vet hd v
    rw [e2 rfl] at e1
    obtain ⟨p2, e3, _, _⟩ := follow_unlink w
    exact ⟨p2, follow_trans e1 e3, by simp, by simp⟩
  | umaskKilled v w => exact ⟨.clear, by simpa using pre v w (k := []) rfl, by simp, by simp⟩
  | accKilled v w b =>
    obtain ⟨p1, e1, _⟩ := follow_bindAcc _ b
    exact ⟨p1, pre v w (mk e1), by simp, by simp⟩
  | accPanic v w b =>
    obtain ⟨p1, e1, _⟩ := follow_bindAcc _ b
    exact ⟨p1, pre v w (mk e1), by simp, by simp⟩
  | finKilled v w b x =>
    obtain ⟨p1, e1, e2⟩ := follow_bindAcc _ b
    obtain ⟨p2, e3, _⟩ := follow_cleanup (e2 _ rfl) x
    exact ⟨p2, pre v w (mk (follow_trans e1 e3)), by simp, by simp⟩
  | done v w b x =>
    rename_i h1 h2 h3 c h4 old old' bb
    obtain ⟨p1, e1, e2⟩ := follow_bindAcc old b
    obtain ⟨p2, e3, e4⟩ := follow_cleanup (e2 _ rfl) x
    rw [e4 _ rfl] at e3
    cases c with
    | none =>
      have e5 : P.follow (.removed old none) [⟨.umask old, old'⟩] = some .closed := by
        simp [Plan.follow, Plan.next]
      exact ⟨_, pre v w (mk (follow_trans e1 (follow_trans e3 e5))), fun _ => Or.inr (Or.inr rfl), by simp⟩
    | some conn =>
      have e5 : P.follow (.removed old (some conn)) [⟨.umask old, old'⟩] = some (.connected conn) := by
        simp [Plan.follow, Plan.next]
      exact ⟨_, pre v w (mk (follow_trans e1 (follow_trans e3 e5))), by simp, by simp⟩

theorem follow_writes {fd t} : ∀ {h s}, (∀ e ∈ h, WriteCall fd e.call) →
    P.follow (.asking fd t s) h = some (.asking fd t (s ++ delivered fd h))
  | [], s, _ => by simp [Plan.follow, delivered]
  | ⟨c, r⟩ :: h, s, hq => by
    have h1 := hq ⟨c, r⟩ (by simp)
    have h2 : ∀ e ∈ h, WriteCall fd e.call := fun e he => hq e (by simp [he])
    have hdel : ∀ e, delivered fd (e :: h) = sent fd e ++ delivered fd h := fun e => rfl
    cases c with
    | sigGet => exact follow_cons rfl (follow_writes h2)
    | sigSet _ => exact follow_cons rfl (follow_writes h2)
    | sockWrite fd' buf =>
      cases h1
      cases r with
      | wrote n =>
        refine follow_cons (ph' := .asking fd t (s ++ buf.take n)) (by simp [Plan.next]) ?_
        rw [follow_writes h2, hdel]
        simp [sent]
      | intr => exact follow_cons (by simp [Plan.next]) (follow_writes h2)
      | fail => exact follow_cons (by simp [Plan.next]) (follow_writes h2)
    | _ => exact False.elim h1

theorem follow_echo {fd} : ∀ {h}, (∀ e ∈ h, WriteCall fd e.call) →
    P.follow (.answered fd) h = some (.answered fd)
  | [], _ => rfl
  | ⟨c, r⟩ :: h, hq => by
    have h1 := hq ⟨c, r⟩ (by simp)
    have h2 : ∀ e ∈ h, WriteCall fd e.call := fun e he => hq e (by simp [he])
    cases c with
    | sigGet => exact follow_cons rfl (follow_echo h2)
    | sigSet _ => exact follow_cons rfl (follow_echo h2)
    | sockWrite fd' buf => cases h1; exact follow_cons (by simp [Plan.next]) (follow_echo h2)
    | _ => exact False.elim h1

/-- A guarded read after the complete prompt. -/
theorem follow_read {fd t o h} (hg : Guarded (.sockRead fd 1) o h) :
    ∃ ph, P.follow (.asking fd t t) h = some ph ∧ (ph = .asking fd t t ∨ ph = .answered fd) ∧
      ∀ r, o = .ok (some r) → ph = .answered fd := by
  cases hg with
  | k3 old r => exact ⟨.answered fd, by simp [Plan.follow, Plan.next], Or.inr rfl, by simp⟩
  | noReset old r => exact ⟨.answered fd, by simp [Plan.follow, Plan.next], Or.inr rfl, by simp⟩
  | done old r => exact ⟨.answered fd, by simp [Plan.follow, Plan.next], Or.inr rfl, by simp⟩
  | _ => exact ⟨.asking fd t t, by simp [Plan.follow, Plan.next], Or.inl rfl, by simp⟩

/-- The phases in which the connection may be shut down. -/
def Talking (fd : Nat) (ph : Phase) : Prop := (∃ t s, ph = .asking fd t s) ∨ ph = .answered fd

theorem follow_shutdown {fd ph} {b : Bool} (ht : Talking fd ph) :
    P.follow ph [⟨.shutdown fd, b⟩] = some .closed := by
  rcases ht with ⟨t, s, rfl⟩ | rfl <;> simp [Plan.follow, Plan.next]

theorem follow_prompt {p : Pair} {conn : Conn} {o h} (hf : P.promptFile = p.options.pairPromptPath)
    (ht : P.prompt = p.promptText) (hp : PromptRun p conn.fd o h) :
    ∃ ph, P.follow (.connected conn) h = some ph ∧ (o ≠ .killed → Talking conn.fd ph) ∧
      (o = .ok (.ok ()) → ph = .answered conn.fd) := by
  have rd : ∀ {r k ph}, P.follow (.asking conn.fd (p.promptText r) []) k = some ph →
      P.follow (.connected conn) (⟨.readFile p.options.pairPromptPath, r⟩ :: k) = some ph :=
    fun hk => follow_cons (by simp [Plan.next, hf, ht]) hk
  have wr : ∀ {r o h}, WroteAll conn.fd (p.promptText r) o h →
      P.follow (.asking conn.fd (p.promptText r) []) h =
        some (.asking conn.fd (p.promptText r) (delivered conn.fd h)) := by
    intro r o h hw
    have := follow_writes (P := P) (t := p.promptText r) (s := []) hw.calls
    simpa using this
  have full : ∀ {r h1 o h2}, WroteAll conn.fd (p.promptText r) (.ok true) h1 → GuardedFlush o h2 →
      P.follow (.asking conn.fd (p.promptText r) []) (h1 ++ h2) =
        some (.asking conn.fd (p.promptText r) (p.promptText r)) := by
    intro r h1 o h2 hw hg
    have e1 := wr hw
    rw [(hw.yes rfl).1] at e1
    have hff := flush_facts hg conn.fd
    have e2 := follow_writes (P := P) (t := p.promptText r) (s := p.promptText r)
      (fun e he => hff.1 e he conn.fd)
    rw [hff.2.1, List.append_nil] at e2
    exact follow_trans e1 e2
  have e3 : ∀ {r h1 o h2 k ph}, WroteAll conn.fd (p.promptText r) (.ok true) h1 → GuardedFlush o h2 →
      P.follow (.asking conn.fd (p.promptText r) (p.promptText r)) k = some ph →
      P.follow (.connected conn) (⟨.readFile p.options.pairPromptPath, r⟩ :: (h1 ++ (h2 ++ k))) = some ph := by
    intro r h1 o h2 k ph hw hg hk
    rw [← List.append_assoc]
    exact rd (follow_trans (full hw hg) hk)
  cases hp with
  | k0 => exact ⟨.connected conn, rfl, by simp, by simp⟩
  | writeErr hw => exact ⟨_, rd (wr hw), fun _ => Or.inl ⟨_, _, rfl⟩, by simp⟩
  | writeStop hw ha => exact ⟨_, rd (wr hw), fun _ => Or.inl ⟨_, _, rfl⟩, by rcases ha with rfl | rfl <;> simp⟩
  | flushErr hw hg => exact ⟨_, rd (full hw hg), fun _ => Or.inl ⟨_, _, rfl⟩, by simp⟩
  | flushKilled hw hg => exact ⟨_, rd (full hw hg), fun _ => Or.inl ⟨_, _, rfl⟩, by simp⟩
  | readKilled hw hg h3 =>
    obtain ⟨ph, k1, k2, _⟩ := follow_read h3
    exact ⟨ph, e3 hw hg k1, by simp, by simp⟩
  | readErr hw hg h3 =>
    obtain ⟨ph, k1, k2, _⟩ := follow_read h3
    refine ⟨ph, e3 hw hg k1, fun _ => ?_, by simp⟩
    rcases k2 with rfl | rfl
    · exact Or.inl ⟨_, _, rfl⟩
    · exact Or.inr rfl
  | echoStop hw hg h3 _ h4 =>
    obtain ⟨ph, k1, _, k3⟩ := follow_read h3
    rw [k3 _ rfl] at k1
    exact ⟨_, e3 hw hg (follow_trans k1 (follow_echo h4.calls)), fun _ => Or.inr rfl, fun _ => rfl⟩
  | nlStop hw hg h3 _ h4 h5 =>
    obtain ⟨ph, k1, _, k3⟩ := follow_read h3
    rw [k3 _ rfl] at k1
    exact ⟨_, e3 hw hg (follow_trans k1 (follow_trans (follow_echo h4.calls) (follow_echo h5.calls))),
      fun _ => Or.inr rfl, fun _ => rfl⟩
  | answered hw hg h3 _ h4 h5 =>
    obtain ⟨ph, k1, _, k3⟩ := follow_read h3
    rw [k3 _ rfl] at k1
    exact ⟨_, e3 hw hg (follow_trans k1 (follow_trans (follow_echo h4.calls) (follow_echo h5.calls))),
      fun _ => Or.inr rfl, fun _ => rfl⟩

theorem follow_pairOpen {p : Pair} {o h} (hs : p.socket = none) (hp : PairOpen rt p o h) : ∃ ph,
    (planOf p (p.socketMode.getD 0)).follow .start h = some ph ∧
    ((∃ e, o = .ok (.error e)) → Ended ph) ∧
    (∀ q fd, o = .ok (.ok q) → q.socket = some fd → ph = .answered fd) ∧
    (∀ q, o = .ok (.ok q) → q.socket = none → ph = .start) := by
  have hd : ∀ m d, Path.parent (planOf p m).path = some d → d = (planOf p m).dir := by
    intro m d h
    have h' : Path.parent p.socketPath = some d := h
    simp [planOf, h']
  have hl : ∀ {o h}, Runs (p.localPairPrompt p.templateSpec) o h →
      (planOf p (p.socketMode.getD 0)).follow .start h = some .start :=
    fun h => follow_quiet ((localPairPrompt_quiet p _).of_runs h)
  have hso : ∀ {o h}, Connects rt p o h → ∃ ph, (planOf p (p.socketMode.getD 0)).follow .start h = some ph ∧
      (o = .ok none → Ended ph) ∧ ∀ conn, o = .ok (some conn) → ph = .connected conn := by
    rintro o h ⟨mode, hm, hs⟩
    rw [hm]
    exact follow_sockOpen (P := planOf p mode) (hd _) (open'_runs hs)
  have hco : ∀ {h conn}, Connects rt p (.ok (some conn)) h →
      (planOf p (p.socketMode.getD 0)).follow .start h = some (.connected conn) := by
    intro h conn hc
    obtain ⟨ph, e1, _, e2⟩ := hso hc
    rw [e2 _ rfl] at e1; exact e1
  have hpr : ∀ {conn : Conn} {o h}, Runs (p.remotePairPrompt p.templateSpec conn.fd) o h → ∃ ph,
      (planOf p (p.socketMode.getD 0)).follow (.connected conn) h = some ph ∧
      (o ≠ .killed → Talking conn.fd ph) ∧ (o = .ok (.ok ()) → ph = .answered conn.fd) :=
    fun h => follow_prompt (P := planOf p (p.socketMode.getD 0)) rfl rfl (remotePairPrompt_runs h)
  cases hp with
  | undecided => exact ⟨.start, rfl, by simp, by simp, by simp⟩
  | exempt =>
    refine ⟨.start, rfl, by simp, ?_, fun _ _ _ => rfl⟩
    intro q fd h1 h2
    simp only [Out.ok.injEq, Except.ok.injEq] at h1
    subst h1; rw [hs] at h2; simp at h2
  | both => exact ⟨.start, rfl, fun _ => Or.inl rfl, by simp, by simp⟩
  | localPanic _ _ h1 => exact ⟨.start, hl h1, by simp, by simp, by simp⟩
  | localKilled _ _ h1 => exact ⟨.start, hl h1, by simp, by simp, by simp⟩
  | noMode _ _ h1 => exact ⟨.start, hl h1, by simp, by simp, by simp⟩
  | sockPanic _ _ h1 h2 =>
    obtain ⟨ph, e1, _, _⟩ := hso h2
    exact ⟨ph, follow_trans (hl h1) e1, by simp, by simp, by simp⟩
  | sockKilled _ _ h1 h2 =>
    obtain ⟨ph, e1, _, _⟩ := hso h2
    exact ⟨ph, follow_trans (hl h1) e1, by simp, by simp, by simp⟩
  | sockErr _ _ h1 h2 =>
    obtain ⟨ph, e1, e2, _⟩ := hso h2
    exact ⟨ph, follow_trans (hl h1) e1, fun _ => e2 rfl, by simp, by simp⟩
  | approved _ _ h1 h2 h3 =>
    obtain ⟨ph, e1, e2, e3⟩ := hpr h3
    refine ⟨ph, follow_trans (hl h1) (follow_trans (hco h2) e1), by simp, ?_, ?_⟩
    · intro q fd k1 k2
      simp only [Out.ok.injEq, Except.ok.injEq] at k1
      subst k1
      simp only [Option.some.injEq] at k2
      subst k2
      exact e3 rfl
    · intro q k1 k2
      simp only [Out.ok.injEq, Except.ok.injEq] at k1
      subst k1
      simp at k2
  | declined _ _ h1 h2 h3 =>
    obtain ⟨ph, e1, e2, e3⟩ := hpr h3
    exact ⟨.closed, follow_trans (hl h1) (follow_trans (hco h2)
      (follow_trans e1 (follow_shutdown (e2 (by simp))))), fun _ => Or.inr (Or.inr rfl), by simp, by simp⟩
  | paniced _ _ h1 h2 h3 =>
    obtain ⟨ph, e1, e2, e3⟩ := hpr h3
    exact ⟨.closed, follow_trans (hl h1) (follow_trans (hco h2)
      (follow_trans e1 (follow_shutdown (e2 (by simp))))), by simp, by simp, by simp⟩
  | killed _ _ h1 h2 h3 =>
    obtain ⟨ph, e1, e2, e3⟩ := hpr h3
    exact ⟨ph, follow_trans (hl h1) (follow_trans (hco h2) e1), by simp, by simp, by simp⟩

theorem order_runs {rt a st o h env0} (hr : Runs (Core.open rt a st) o h) (hnew : IoEnv.new rt a = some (.ok env0)) :
    let p := Pair.ofEnv (effEnv st env0)
    ∃ ph, (planOf p (p.socketMode.getD 0)).follow .start h = some ph := by
  intro p
  have hE : ∀ {e}, IoEnv.new rt a = some (.ok e) → e = env0 := by
    intro e he; rw [hnew] at he; simpa using he.symm
  have hE' : ∀ {e}, IoEnv.new rt a = some (.error e) → False := by
    intro e he; rw [hnew] at he; simp at he
  cases coreOpen_runs hr with
  | envPanic h1 => rw [hnew] at h1; simp at h1
  | envErr h1 _ => exact (hE' h1).elim
  | envKilled h1 _ => exact (hE' h1).elim
  | empty => exact ⟨.start, rfl⟩
  | panic k1 k2 k3 =>
    cases hE k1
    obtain ⟨ph, e1, _⟩ := follow_pairOpen rfl k3
    exact ⟨ph, e1⟩
  | killed k1 k2 k3 =>
    cases hE k1
    obtain ⟨ph, e1, _⟩ := follow_pairOpen rfl k3
    exact ⟨ph, e1⟩
  | refused k1 k2 k3 k4 =>
    cases hE k1
    obtain ⟨ph, e1, e2, _⟩ := follow_pairOpen rfl k3
    obtain ⟨ph', e3⟩ := follow_ended (e2 ⟨_, rfl⟩) k4
    exact ⟨ph', follow_trans e1 e3⟩
  | refusedKilled k1 k2 k3 k4 =>
    cases hE k1
    obtain ⟨ph, e1, e2, _⟩ := follow_pairOpen rfl k3
    obtain ⟨ph', e3⟩ := follow_ended (e2 ⟨_, rfl⟩) k4
    exact ⟨ph', follow_trans e1 e3⟩
  | accepted k1 k2 k3 k4 =>
    cases hE k1
    obtain ⟨ph, e1, _⟩ := follow_pairOpen rfl k3
    exact ⟨ph, e1⟩
  | again k1 k2 k3 k4 k5 =>
    cases hE k1
    obtain ⟨ph, e1, _, e2, _⟩ := follow_pairOpen rfl k3
    rcases drop_runs k5 with ⟨_, rfl⟩ | ⟨_, _, rfl⟩ | ⟨fd, b, hs, _, rfl⟩
    · exact ⟨ph, by simpa using e1⟩
    · exact ⟨ph, by simpa using e1⟩
    · have := e2 _ fd rfl hs
      subst this
      exact ⟨.closed, follow_trans e1 (follow_shutdown (Or.inr rfl))⟩
  | againKilled k1 k2 k3 k4 =>
    cases hE k1
    obtain ⟨ph, e1, _⟩ := follow_pairOpen rfl k3
    exact ⟨ph, e1⟩

theorem order_complete {rt a st st' h env0} (hr : Runs (Core.open rt a st) (.ok (1, st')) h)
    (hnew : IoEnv.new rt a = some (.ok env0)) (hcmd : (effEnv st env0).commandInfo.command ≠ [])
    (hno : st.plugin = none) :
    let p := Pair.ofEnv (effEnv st env0)
    p.isExempt rt.debug ≠ some true →
    ∃ fd, (planOf p (p.socketMode.getD 0)).follow .start h = some (.answered fd) := by
  intro p hx
  generalize ho : Out.ok ((1 : Int), st') = o at hr
  cases coreOpen_runs hr with
  | empty k1 k2 => rw [hnew] at k1; cases k1; exact absurd k2 hcmd
  | accepted k1 k2 k3 k4 =>
    rw [hnew] at k1; cases k1
    rename_i q
    obtain ⟨ph, e1, _, e2, _⟩ := follow_pairOpen rfl k3
    have hsome : ∃ fd, q.socket = some fd := by
      generalize hoo : Out.ok (Except.ok q) = o' at k3
      cases k3 with
      | exempt h => exact absurd h hx
      | approved =>
        simp only [Out.ok.injEq, Except.ok.injEq] at hoo
        exact ⟨_, by rw [hoo]⟩
      | _ => simp at hoo
    obtain ⟨fd, hfd⟩ := hsome
    exact ⟨fd, by rw [← e2 _ fd rfl hfd]; exact e1⟩
  | again k1 k2 k3 k4 => rw [hno] at k4; simp at k4
  | _ => simp at ho

theorem planOf_spec {env : IoEnv} {P : Plan} (h : PlanOf env P) :
    P = planOf (Pair.ofEnv env) ((Pair.ofEnv env).socketMode.getD 0) := by
  have hpath : P.path = (Pair.ofEnv env).socketPath := by rw [h.path, sessionPath_eq]
  have hdir := h.dir
  rw [hpath] at hdir
  have hdir := (dirPart_socket (Pair.ofEnv env) P.dir).1 hdir
  have huid : P.uid = (Pair.ofEnv env).socketUid := by
    rw [h.uid]
    show _ = if (Pair.ofEnv env).toUser = true then env.commandInfo.runasEuid else 4294967295
    by_cases hu : env.userInfo.uid = env.commandInfo.runasEuid <;> simp [Pair.toUser, Pair.ofEnv, hu, noId]
  have hgid : P.gid = (Pair.ofEnv env).socketGid := by
    rw [h.gid]
    show _ = if (Pair.ofEnv env).toExplicitGroup = true then env.commandInfo.runasEgid else 4294967295
    cases hg : env.settings.runasGroup <;> simp [Pair.toExplicitGroup, Pair.ofEnv, hg, noId]
  have hmode : P.mode = (Pair.ofEnv env).socketMode.getD 0 := by
    rw [h.mode]
    unfold Pair.socketMode
    by_cases hu : env.userInfo.uid = env.commandInfo.runasEuid <;> cases hg : env.settings.runasGroup <;>
      simp [Pair.toUser, Pair.toExplicitGroup, Pair.ofEnv, hu, hg, Socket.S_IWUSR, Socket.S_IWGRP]
  have hprompt : P.prompt = (Pair.ofEnv env).promptText :=
    funext fun r => ((C28_variables (Pair.ofEnv env) _ _).2 (h.prompt r)).symm
  obtain ⟨d, p, u, g, m, f, t⟩ := P
  simp only at hpath hdir huid hgid hmode hprompt
  rw [planOf, hdir, hpath, huid, hgid, hmode, hprompt]
  congr 1
  exact h.file

/-- Every session has a plan. -/
theorem planOf_exists (env : IoEnv) : PlanOf env (planOf (Pair.ofEnv env) ((Pair.ofEnv env).socketMode.getD 0)) := by
  obtain ⟨d, hd, _⟩ := C16_parent (Pair.ofEnv env)
  refine ⟨sessionPath_eq env, ?_, ?_, ?_, ?_, rfl, fun r => (C28_variables (Pair.ofEnv env) _ _).1 rfl⟩
  · refine (dirPart_socket (Pair.ofEnv env) _).2 ?_
    rw [planOf, hd]; rfl
  · show (if (Pair.ofEnv env).toUser = true then env.commandInfo.runasEuid else 4294967295) = _
    by_cases hu : env.userInfo.uid = env.commandInfo.runasEuid <;> simp [Pair.toUser, Pair.ofEnv, hu, noId]
  · show (if (Pair.ofEnv env).toExplicitGroup = true then env.commandInfo.runasEgid else 4294967295) = _
    cases hg : env.settings.runasGroup <;> simp [Pair.toExplicitGroup, Pair.ofEnv, hg, noId]
  · show (Pair.ofEnv env).socketMode.getD 0 = _
    unfold Pair.socketMode
    by_cases hu : env.userInfo.uid = env.commandInfo.runasEuid <;> cases hg : env.settings.runasGroup <;>
      simp [Pair.toUser, Pair.toExplicitGroup, Pair.ofEnv, hu, hg, Socket.S_IWUSR, Socket.S_IWGRP]

/-- C54.  Whatever the system answers, `open` interacts with it in the order of the plan of its session:
the local prompt, then the directory, the stale socket, umask, bind, chown, chmod, select, accept, the
removal of the socket, umask, the prompt file, the prompt to the pair, and only after all of the prompt
the reply; when the attempt ends early only the clean-up and messages follow. -/
theorem C54_order {rt a st o h env0} (hr : Runs (Core.open rt a st) o h) (hnew : IoEnv.new rt a = some (.ok env0)) :
    (∃ P, PlanOf (st.env.getD env0) P) ∧ ∀ P, PlanOf (st.env.getD env0) P → ∃ ph, P.follow .start h = some ph := by
  refine ⟨⟨_, planOf_exists _⟩, fun P hP => ?_⟩
  rw [planOf_spec hP]
  exact order_runs hr hnew

/-- C54.  When `open` accepts a session that needs approval, the whole sequence has been gone through: the
history ends after the reply. -/
theorem C54_complete {rt a st st' h env0} (hr : Runs (Core.open rt a st) (.ok (1, st')) h)
    (hnew : IoEnv.new rt a = some (.ok env0)) (hcmd : (st.env.getD env0).commandInfo.command ≠ [])
    (hno : st.plugin = none) (hx : ¬ Exempt (st.env.getD env0) (optionsOf (st.env.getD env0)))
    {P : Plan} (hP : PlanOf (st.env.getD env0) P) :
    ∃ fd, P.follow .start h = some (.answered fd) := by
  rw [planOf_spec hP]
  refine order_complete hr hnew hcmd hno fun h => hx ?_
  exact (C04_rule _ _ _ h).1 rfl

/-- C54.  When the session's environment cannot be made, only messages are printed. -/
theorem C54_no_session {rt a st o h} (hr : Runs (Core.open rt a st) o h)
    (hnew : ∀ env0, IoEnv.new rt a ≠ some (.ok env0)) (P : Plan) : P.follow .start h = some .start := by
  cases coreOpen_runs hr with
  | envPanic => rfl
  | envErr _ hp => exact follow_quiet hp.quiet
  | envKilled _ hp => exact follow_quiet hp.quiet
  | empty k | panic k | killed k | refused k | refusedKilled k | accepted k | again k | againKilled k =>
    exact absurd k (hnew _)

/-- The plan of the sample session. -/
def samplePlan : Plan :=
  { dir := b! "/var/run/sudo_pair", path := b! "/var/run/sudo_pair/1000.42.sock", uid := 0, gid := noId
    mode := 0o200, promptFile := b! "/etc/sudo_pair.prompt.pair"
    prompt := fun r => (Pair.ofEnv sampleEnv).promptText r }

/-- The phase at the end of the sample session. -/
def samplePhase (answers : Sched) : Option Phase :=
  match IoEnv.new sampleRt sampleArgs with
  | some (.ok env0) =>
    let p := Pair.ofEnv (effEnv Core.init env0)
    (planOf p (p.socketMode.getD 0)).follow .start (Core.open sampleRt sampleArgs Core.init answers).2.1
  | _ => none

example : samplePhase (List.replicate 60 (coop 121)) = some (.answered 8) ∧
    samplePhase (List.replicate 60 (coop 110)) = some .closed := by decide +kernel

/-- Reading the reply before the prompt is complete, or sending the prompt before the socket file is
removed and the umask restored, is not in order. -/
example : samplePlan.follow (.asking 8 [1, 2] [1]) [⟨.sockRead 8 1, .fail⟩] = none ∧
    samplePlan.follow (.over 0o22 (some ⟨8, ⟨0, [0]⟩⟩)) [⟨.readFile (b! "/etc/sudo_pair.prompt.pair"), none⟩] = none ∧
    samplePlan.follow (.bound 0o22 7) [⟨.chmod (b! "/var/run/sudo_pair/1000.42.sock") 0o200, true⟩] = none ∧
    samplePlan.follow .start [⟨.bind (b! "/var/run/sudo_pair/1000.42.sock"), .bound 7⟩] = none := by
  decide +kernel

end SudoPair
