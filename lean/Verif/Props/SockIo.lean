import Verif.Lemmas.Piecewise
import Verif.Props.Mirror
import Verif.Props.Order
import Verif.Spec.Signal
/-
C42, C43, C44: reading from and writing to the pair.
-/
namespace SudoPair
open Spec

/-- The disposition that `ctrl_c_aborts_syscalls` installs. -/
def noRestart (a : SigAction) : SigAction := { a with flags := a.flags &&& ~~~ SA_RESTART }

theorem noRestart_idem (a : SigAction) : noRestart (noRestart a) = noRestart a := by
  simp [noRestart, BitVec.and_assoc]

theorem interrupting_noRestart (a : SigAction) : Interrupting a (noRestart a) := by
  refine ⟨rfl, rfl, ?_, ?_⟩
  · simp only [noRestart, SA_RESTART, BitVec.getLsbD_and, BitVec.getLsbD_not]
    simp
  · intro i hi
    simp only [noRestart, BitVec.getLsbD_and, BitVec.getLsbD_not]
    have hb : SA_RESTART.getLsbD i = false := by
      have : SA_RESTART = BitVec.twoPow 32 28 := by decide
      rw [this, BitVec.getLsbD_twoPow]
      simp [Ne.symm hi]
    rw [hb]
    by_cases h32 : i < 32
    · simp [h32]
    · simp [h32, BitVec.getLsbD_of_ge a.flags i (by omega)]

theorem disposition_append (cur : SigAction) (a b : Hist) :
    disposition cur (a ++ b) = disposition (disposition cur a) b := by
  simp [disposition]

theorem sigTruth_append : ∀ (a b : Hist) (cur : SigAction),
    sigTruth cur (a ++ b) = (sigTruth cur a && sigTruth (disposition cur a) b)
  | [], b, cur => by simp [sigTruth, disposition]
  | e :: a, b, cur => by
    simp only [List.cons_append, sigTruth, sigTruth_append a b, Bool.and_assoc]
    rfl

/-- What holds of the disposition in every piece of a history: it is always the original or the
interrupting one, it is the interrupting one during I/O with the pair, and it is the original one at the
end unless the process was killed or a call failed. -/
def SigInv (killed : Bool) (h : Hist) : Prop :=
  ∀ cur, sigTruth cur h = true →
    (∀ pre post, h = pre ++ post → disposition cur pre = cur ∨ disposition cur pre = noRestart cur) ∧
    (∀ pre e post, h = pre ++ e :: post → PairIo e → disposition cur pre = noRestart cur) ∧
    (killed = false → (∀ e ∈ h, ¬ SigSetFails e) → disposition cur h = cur)

theorem sigInv_piecewise : Piecewise SigInv where
  nil k cur _ := by
    refine ⟨?_, ?_, fun _ _ => rfl⟩
    · intro pre post h
      rw [(List.nil_eq_append_iff.1 h).1]; exact Or.inl rfl
    · intro pre e post h; simp at h
  append := by
    intro h h' k h1 h2 cur ht
    rw [sigTruth_append] at ht
    simp only [Bool.and_eq_true] at ht
    obtain ⟨a1, a2, a3⟩ := h1 cur ht.1
    obtain ⟨b1, b2, b3⟩ := h2 _ ht.2
    have key : disposition cur h = cur ∨ disposition cur h = noRestart cur := a1 h [] (by simp)
    have idem : noRestart (disposition cur h) = noRestart cur := by
      rcases key with k | k <;> rw [k]
      exact noRestart_idem _
    refine ⟨?_, ?_, ?_⟩
    · intro pre post heq
      rcases List.append_eq_append_iff.1 heq with ⟨m, rfl, rfl⟩ | ⟨m, rfl, rfl⟩
      · rw [disposition_append]
        rcases b1 m post rfl with k' | k' <;> rw [k']
        · exact key
        · exact Or.inr idem
      · exact a1 pre m rfl
    · intro pre e post heq hio
      rcases List.append_eq_append_iff.1 heq with ⟨m, rfl, he⟩ | ⟨m, rfl, he⟩
      · rw [disposition_append, b2 m e post he hio, idem]
      · rcases m with _ | ⟨e', m⟩
        · simp only [List.nil_append] at he
          simp only [List.append_nil] at b2 idem
          have := b2 [] e post (by simpa using he.symm) hio
          rw [← idem, ← this]; rfl
        · simp only [List.cons_append, List.cons.injEq] at he
          obtain ⟨rfl, rfl⟩ := he
          exact a2 pre e m rfl hio
    · intro hk hf
      rw [disposition_append, b3 hk (fun e he => hf e (List.mem_append_right _ he))]
      exact a3 rfl (fun e he => hf e (List.mem_append_left _ he))

/-- All splittings of a short history. -/
theorem split_cons {e : Ev} {h pre post : Hist} (hh : e :: h = pre ++ post) :
    (pre = [] ∧ post = e :: h) ∨ ∃ pre', pre = e :: pre' ∧ h = pre' ++ post := by
  rcases pre with _ | ⟨e', pre⟩
  · exact Or.inl ⟨rfl, by simpa using hh.symm⟩
  · simp only [List.cons_append, List.cons.injEq] at hh
    exact Or.inr ⟨pre, by rw [hh.1], hh.2⟩

/-- One step of the invariant, in the form used for fixed-length histories. -/
def SigChk (orig : SigAction) : SigAction → Hist → Prop
  | cur, [] => cur = orig ∨ cur = noRestart orig
  | cur, e :: h => (cur = orig ∨ cur = noRestart orig) ∧ (PairIo e → cur = noRestart orig) ∧
      SigChk orig (sigStep cur e) h

theorem sigChk_pre {orig} : ∀ {h cur pre post}, SigChk orig cur h → h = pre ++ post →
    disposition cur pre = orig ∨ disposition cur pre = noRestart orig
  | [], _, pre, post, hc, hh => by
    rw [(List.nil_eq_append_iff.1 hh).1]; exact hc
  | e :: h, cur, pre, post, hc, hh => by
    rcases split_cons hh with ⟨rfl, rfl⟩ | ⟨pre', rfl, rfl⟩
    · exact hc.1
    · exact sigChk_pre (cur := sigStep cur e) hc.2.2 rfl

theorem sigChk_io {orig} : ∀ {h cur pre e post}, SigChk orig cur h → h = pre ++ e :: post → PairIo e →
    disposition cur pre = noRestart orig
  | [], _, pre, e, post, hc, hh, _ => by simp at hh
  | e :: h, cur, pre, e', post, hc, hh, hio => by
    rcases split_cons hh with ⟨rfl, h1⟩ | ⟨pre', rfl, rfl⟩
    · cases h1; exact hc.2.1 hio
    · exact sigChk_io (cur := sigStep cur e) hc.2.2 rfl hio

theorem sigInv_of_chk {k h} (hc : ∀ cur, sigTruth cur h = true → SigChk cur cur h)
    (hf : k = false → (∀ e ∈ h, ¬ SigSetFails e) → ∀ cur, sigTruth cur h = true → disposition cur h = cur) :
    SigInv k h := by
  intro cur ht
  exact ⟨fun _ _ heq => sigChk_pre (hc cur ht) heq, fun _ _ _ heq hio => sigChk_io (hc cur ht) heq hio,
    fun hk hs => hf hk hs cur ht⟩

theorem sigInv_guarded {c : Sys} {o h} (hio : ∀ r, PairIo ⟨c, r⟩) (hg : Guarded c o h) : SigInv o.isKilled h := by
  have hst : ∀ cur r, sigStep cur ⟨c, r⟩ = cur := by
    intro cur r
    have := hio r
    cases c <;> first | rfl | exact this.elim
  have htr : ∀ cur r h, sigTruth cur (⟨c, r⟩ :: h) = sigTruth cur h := by
    intro cur r h
    have h1 := hst cur r
    have := hio r
    cases c <;> first | exact this.elim | simp [sigTruth, h1]
  refine sigInv_of_chk ?_ ?_
  · intro cur ht
    cases hg <;> simp_all [sigTruth, SigChk, sigStep, noRestart, PairIo]
  · intro hk hs cur ht
    cases hg <;> simp_all [Out.isKilled, disposition, sigTruth, sigStep, SigSetFails]

theorem sigInv_inv : PieceInv SigInv where
  toPiecewise := sigInv_piecewise
  plain := by
    intro c r hc
    refine sigInv_of_chk ?_ ?_
    · intro cur ht
      cases c <;> first | exact hc.elim | simp [SigChk, sigStep, PairIo]
    · intro _ _ cur ht
      cases c <;> first | exact hc.elim | rfl
  read fd o h hg := sigInv_guarded (fun _ => trivial) hg
  write fd buf o h hg := sigInv_guarded (fun _ => trivial) hg
  flush := by
    intro o h hg
    refine sigInv_of_chk ?_ ?_
    · intro cur ht
      cases hg <;> simp_all [sigTruth, SigChk, sigStep, noRestart, PairIo]
    · intro hk hs cur ht
      cases hg <;> simp_all [Out.isKilled, disposition, sigTruth, sigStep, SigSetFails]

/-- C42.  In every sequence of callbacks, during every read from and write to the pair SIGINT's disposition
is the original one without `SA_RESTART` and with nothing else changed; even after failed `sigaction`
calls. -/
theorem C42_during {rt cs st o h cur pre e post} (hr : Runs (Core.run rt cs st) o h)
    (ht : sigTruth cur h = true) (hh : h = pre ++ e :: post) (hio : PairIo e) :
    Interrupting cur (disposition cur pre) := by
  rw [(wp_iff_runs.1 (keeps_run sigInv_inv rt cs st) o h hr cur ht).2.1 pre e post hh hio]
  exact interrupting_noRestart cur

/-- C42.  After every sequence of callbacks the original disposition is in force, unless a call that was
to change it failed (or the process was killed meanwhile). -/
theorem C42_restored {rt cs st o h cur} (hr : Runs (Core.run rt cs st) o h)
    (ht : sigTruth cur h = true) (ho : o ≠ .killed) (hf : ∀ e ∈ h, ¬ SigSetFails e) :
    disposition cur h = cur := by
  refine (wp_iff_runs.1 (keeps_run sigInv_inv rt cs st) o h hr cur ht).2.2 ?_ hf
  cases o <;> first | rfl | exact absurd rfl ho

/-- C42.  The same for a single callback, whatever it returned. -/
theorem C42_callback {rt c st o h cur} (hr : Runs (Core.step rt c st) o h)
    (ht : sigTruth cur h = true) (ho : o ≠ .killed) (hf : ∀ e ∈ h, ¬ SigSetFails e) :
    disposition cur h = cur := by
  refine (wp_iff_runs.1 (keeps_step sigInv_inv rt c st) o h hr cur ht).2.2 ?_ hf
  cases o <;> first | rfl | exact absurd rfl ho

/-- C42.  At no point is any other disposition in force. -/
theorem C42_always {rt cs st o h cur pre post} (hr : Runs (Core.run rt cs st) o h)
    (ht : sigTruth cur h = true) (hh : h = pre ++ post) :
    disposition cur pre = cur ∨ Interrupting cur (disposition cur pre) := by
  rcases (wp_iff_runs.1 (keeps_run sigInv_inv rt cs st) o h hr cur ht).1 pre post hh with h1 | h1
  · exact Or.inl h1
  · exact Or.inr (h1 ▸ interrupting_noRestart cur)

/-- The disposition of the sample session: a handler with `SA_RESTART` and `SA_NODEFER`. -/
def sampleAct : SigAction := ⟨77, 0x50000000#32, 3⟩

/-- A system on which `sampleAct` is in force whenever the plugin asks. -/
def withHandler : Answer
  | .sigGet => some sampleAct
  | c => coop 121 c

/-- The history of the sample session. -/
def handlerHist : Hist :=
  (Core.run sampleRt [.open sampleArgs, .log .ttyout (b! "x")] Core.init (List.replicate 60 withHandler)).2.1

/-- Non-vacuity: an approved session with one mirrored byte on a truthful kernel. -/
example : sigTruth sampleAct handlerHist = true ∧
    (handlerHist.map Ev.call).any (fun c => c matches .sockRead 8 1) = true ∧
    (handlerHist.map Ev.call).contains (.sockWrite 8 (b! "x")) = true ∧
    (handlerHist.map Ev.call).contains (.sigSet ⟨77, 0x40000000#32, 3⟩) = true := by decide +kernel

/-! ### C43 -/

/-- The reply has been read, or the attempt has been given up. -/
def Late : Phase → Prop
  | .answered _ => True
  | .closed => True
  | _ => False

theorem late_next {P : Plan} {ph e ph'} (hl : Late ph) (h : P.next ph e = some ph') : Late ph' := by
  rcases e with ⟨c, r⟩
  cases ph <;> first | exact hl.elim | skip
  all_goals
    cases c <;> simp only [Plan.next, reduceCtorEq] at h <;> first
      | (split at h <;> simp only [Option.some.injEq, reduceCtorEq] at h; subst h; trivial)
      | (simp only [Option.some.injEq] at h; subst h; trivial)

theorem late_follow {P : Plan} : ∀ {h ph ph'}, Late ph → P.follow ph h = some ph' → Late ph'
  | [], _, _, hl, h => by simp only [Plan.follow, Option.some.injEq] at h; exact h ▸ hl
  | e :: h, ph, ph', hl, hf => by
    simp only [Plan.follow] at hf
    cases hn : P.next ph e with
    | none => rw [hn] at hf; simp at hf
    | some q => rw [hn] at hf; exact late_follow (late_next hl hn) hf

theorem late_of_read {P : Plan} : ∀ {h ph ph' fd} {e : Ev}, P.follow ph h = some ph' → e ∈ h → IsRead fd e → Late ph'
  | [], _, _, _, _, _, he, _ => by simp at he
  | x :: h, ph, ph', fd, e, hf, he, hrd => by
    simp only [Plan.follow] at hf
    cases hn : P.next ph x with
    | none => rw [hn] at hf; simp at hf
    | some q =>
      rw [hn] at hf
      rcases List.mem_cons.1 he with rfl | he
      · refine late_follow ?_ hf
        rcases e with ⟨c, r⟩
        obtain ⟨len, hc⟩ := hrd
        cases hc
        cases ph <;> simp only [Plan.next, cleanup, reduceCtorEq] at hn
        split at hn
        · simp only [Option.some.injEq] at hn; subst hn; trivial
        · simp at hn
      · exact late_of_read (h := h) hf he hrd

/-- Nothing is read before the wait for a connection. -/
theorem no_read_before_select {P : Plan} {ph h1 h2 fd r} (hf : P.follow .start (h1 ++ ⟨.select fd, r⟩ :: h2) = some ph) :
    ∀ x ∈ h1, ∀ fd, ¬ IsRead fd x := by
  intro x hx fd' hrd
  rw [follow_append] at hf
  cases hn : P.follow .start h1 with
  | none => rw [hn] at hf; simp at hf
  | some q =>
    rw [hn] at hf
    have := late_of_read hn hx hrd
    cases q <;> first | exact this.elim | simp [Plan.follow, Plan.next] at hf

/-- C43.  When the wait for a pair is interrupted, `open` returns -1. -/
theorem C43_connect {rt a st r st' h fd b} (hr : Runs (Core.open rt a st) (.ok (r, st')) h)
    (he : (⟨.select fd, (-1, b)⟩ : Ev) ∈ h) : r = -1 := by
  obtain ⟨h1, h2, rfl⟩ := List.append_of_mem he
  refine C03_failure rt a st st' r _ h1 h2 _ hr rfl (by simp [Fails]) ?_
  rcases hn : IoEnv.new rt a with _ | (e | env0)
  · exact no_read_before_select (C54_no_session hr (by simp [hn]) (planOf (Pair.ofEnv sampleEnv) 0))
  · exact no_read_before_select (C54_no_session hr (by simp [hn]) (planOf (Pair.ofEnv sampleEnv) 0))
  · obtain ⟨ph, hf⟩ := order_runs hr hn
    exact no_read_before_select hf

/-- C43.  When the wait for the reply is interrupted, `open` returns -1. -/
theorem C43_answer {rt a st r st' h fd n} (hr : Runs (Core.open rt a st) (.ok (r, st')) h)
    (he : (⟨.sockRead fd n, .intr⟩ : Ev) ∈ h) : r = -1 :=
  C03_reply rt a st st' r h hr _ fd he ⟨n, rfl⟩ (fun h => h) (fun h => h)

/-- C43.  Interrupted writes do not make mirroring fail, and whatever was interrupted, the pair has
received exactly the output once: for every mirroring callback of a connected session in which no call
fails (an interrupted one is not a failure). -/
theorem C43_mirror {rt env p fd c o h} (hs : p.socket = some fd) (hc : c.isLog)
    (hin : ∀ buf, c ≠ .log .stdin buf) (hr : Runs (Core.step rt c ⟨some env, some p⟩) o h)
    (ho : o ≠ .killed) (hf : ∀ e ∈ h, ¬ Fails e ∧ ¬ Overcount e) :
    o = .ok (1, ⟨some env, some p⟩) ∧ delivered fd h = payload env.commandInfo c := by
  have k := step_mirror hs hc hin hr
  rcases k.ret with h1 | h1 | h1
  · exact ⟨h1, (k.yes h1).1⟩
  · obtain ⟨e, he, h2⟩ := k.no h1
    rcases h2 with h2 | h2
    · exact absurd h2 (hf e he).1
    · exact absurd h2 (hf e he).2
  · exact absurd h1 ho

/-- C43.  And in any case, also when it fails or the process is killed after any number of interrupts,
what the pair has received is an initial part of the output. -/
theorem C43_mirror_prefix {rt env p fd c o h} (hs : p.socket = some fd) (hc : c.isLog)
    (hin : ∀ buf, c ≠ .log .stdin buf) (hr : Runs (Core.step rt c ⟨some env, some p⟩) o h) :
    delivered fd h <+: payload env.commandInfo c :=
  (step_mirror hs hc hin hr).pre

/-- Writes are interrupted. -/
def interrupted : Answer
  | .sockWrite _ _ => .intr
  | .sockRead _ _ => .intr
  | .select _ => ((-1, false) : Int × Bool)
  | c => coop 121 c

/-- One byte is accepted per write. -/
def oneByte : Answer
  | .sockWrite _ _ => .wrote 1
  | c => coop 121 c

/-- Non-vacuity: an interrupted connection, an interrupted reply, and interrupted mirroring. -/
example :
    retOf (Core.open sampleRt sampleArgs Core.init (List.replicate 60 interrupted)).1 = some (-1) ∧
    retOf (Core.open sampleRt sampleArgs Core.init (List.replicate 23 (coop 121) ++ [interrupted] ++
      List.replicate 30 (coop 121))).1 = some (-1) ∧
    ((Core.open sampleRt sampleArgs Core.init (List.replicate 23 (coop 121) ++ [interrupted] ++
      List.replicate 30 (coop 121))).2.1.map Ev.call)[23]? = some (.sockRead 8 1) ∧
    retOf (Core.step sampleRt (.log .ttyout (b! "xyz")) ⟨some sampleEnv, some { samplePair with socket := some 8 }⟩
      (List.replicate 8 interrupted ++ List.replicate 4 oneByte ++ List.replicate 4 interrupted ++
        List.replicate 8 oneByte)).1 = some 1 ∧
    delivered 8 (Core.step sampleRt (.log .ttyout (b! "xyz"))
      ⟨some sampleEnv, some { samplePair with socket := some 8 }⟩
      (List.replicate 8 interrupted ++ List.replicate 4 oneByte ++ List.replicate 4 interrupted ++
        List.replicate 8 oneByte)).2.1 = b! "xyz" := by decide +kernel

/-! ### C44 -/

/-- C44.  When `write_all` to the pair succeeds, what was accepted is exactly the buffer. -/
theorem C44_success {fd buf h} (hr : Runs (Socket.writeAll fd buf) (.ok true) h) : delivered fd h = buf :=
  ((socketWriteAll_runs hr).yes rfl).1

/-- C44.  Whatever happens, what was accepted is an initial part of the buffer, and nothing goes to
anybody else. -/
theorem C44_prefix {fd buf o h} (hr : Runs (Socket.writeAll fd buf) o h) :
    delivered fd h <+: buf ∧ ∀ fd', fd' ≠ fd → delivered fd' h = [] :=
  ⟨(socketWriteAll_runs hr).pre, fun _ hne => delivered_other (socketWriteAll_runs hr).calls hne⟩

/-- C44, converse direction, under two assumptions on the system: no `sigaction` call fails and no write
claims more bytes than it was given.  The full statement has neither; see `C44_counterexample`. -/
theorem C44_exact_partial {fd buf o h} (hr : Runs (Socket.writeAll fd buf) o h) (ho : o ≠ .killed)
    (hs : ∀ e ∈ h, ¬ SigSetFails e) (hov : ∀ e ∈ h, ¬ Overcount e) (hd : delivered fd h = buf) :
    o = .ok true := by
  have k := socketWriteAll_runs hr
  rcases o with (_ | _) | _ | _
  · obtain ⟨act, ha⟩ := (k.no rfl).2 hd
    exact absurd rfl (hs _ ha)
  · rfl
  · obtain ⟨e, he, h2⟩ := k.panic rfl
    exact absurd h2 (hov e he)
  · exact absurd rfl ho

/-- C44.  For `log_output`: success means exactly the output, failure is reported. -/
theorem C44_log_output {p : Pair} {fd buf h r} (hs : p.socket = some fd) (hr : Runs (p.logOutput buf) (.ok r) h)
    (hsig : ∀ e ∈ h, ¬ SigSetFails e) :
    delivered fd h <+: buf ∧ (r = .ok () ↔ delivered fd h = buf) := by
  rcases logOutput_runs hr with ⟨hn, _⟩ | ⟨fd', o', hfd, hw, ho⟩
  · rw [hs] at hn; simp at hn
  · rw [hs] at hfd; cases hfd
    refine ⟨hw.pre, ?_⟩
    rcases o' with (_ | _) | _ | _
    · simp at ho; subst ho
      refine ⟨fun h => by simp at h, fun hd => ?_⟩
      obtain ⟨act, ha⟩ := (hw.no rfl).2 hd
      exact absurd rfl (hsig _ ha)
    · simp at ho; subst ho
      exact ⟨fun _ => (hw.yes rfl).1, fun _ => rfl⟩
    · simp at ho
    · simp at ho

/-- A kernel that refuses to reinstall the handler. -/
def noReset : Answer
  | .sigSet _ => false
  | c => coop 121 c

/-- The last interaction's answer differs. -/
def failingReset : Sched := List.replicate 3 (coop 121) ++ [noReset]

/-- C44: the full statement fails; when the handler cannot be reinstalled after everything was
delivered, `write_all` reports a failure. -/
theorem C44_counterexample : (Socket.writeAll 8 (b! "abc") failingReset).1 = .ok false ∧
    delivered 8 (Socket.writeAll 8 (b! "abc") failingReset).2.1 = b! "abc" := by decide +kernel

/-- Non-vacuity: short writes and interrupts. -/
example : (Socket.writeAll 8 (b! "abc") (List.replicate 4 interrupted ++ List.replicate 12 oneByte)).1 = .ok true ∧
    (Socket.writeAll 8 (b! "abc") (List.replicate 4 oneByte ++ List.replicate 4 brokenPipe)).1 = .ok false ∧
    delivered 8 (Socket.writeAll 8 (b! "abc") (List.replicate 4 oneByte ++ List.replicate 4 brokenPipe)).2.1 =
      b! "a" := by decide +kernel

end SudoPair
