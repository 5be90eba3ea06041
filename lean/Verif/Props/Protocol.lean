import Verif.Lemmas.Protocol
import Verif.Props.Gate
import Verif.Props.Order
import Verif.Props.Path
import Verif.Props.Builds
import Verif.Props.Rejection
/-
C63: every callback is exactly the documented protocol.
-/
namespace SudoPair
open Spec

variable {ρ : Type} {S : Session} {fin : Verdict → ρ} {rt : Rt} {p : Pair}

/-- `S` is the session of `p`, in terms of the plugin's own functions. -/
structure Fits (rt : Rt) (p : Pair) (S : Session) : Prop where
  tty      : S.tty = p.env.userInfo.tty
  prints   : S.prints = p.env.hasPrintf
  userFile : S.userFile = p.options.userPromptPath
  userText : ∀ r, S.userText r = p.templateSpec.expand (r.getD defaultUserPrompt)
  pairFile : S.pairFile = p.options.pairPromptPath
  pairText : ∀ r, S.pairText r = p.templateSpec.expand (r.getD defaultPairPrompt)
  path     : S.path = p.socketPath
  dir      : S.dir = Path.parent p.socketPath
  root     : S.root = rt.euid
  uid      : S.uid = p.socketUid
  gid      : S.gid = p.socketGid
  mode     : S.mode = p.socketMode
  fds      : S.fds = rt.fdSetSize

theorem sim_tell {C : M Bool → M ρ} (hC : Around C) {N : Nat}
    (hnext : ∀ n, n ≤ N → ∀ b, Sim S fin n (C (pure b)) S.connect)
    (habsurd : ∀ n, n ≤ N → Sim S fin n (C M.panic) (.over .refused)) (text : Bytes) :
    Sim S fin N (C ((PrintFacility.stderr S.prints).writeAll text)) (S.tell text) :=
  sim_print (pf := PrintFacility.stderr S.prints) hC (again := fun r => .tell r) (fun _ => rfl)
    (fun n hn => hnext n hn true) (fun n hn => hnext n hn false) habsurd text

theorem sim_localPairPrompt (hf : Fits rt p S) {D : M Unit → M ρ} (hD : Around D) {N : Nat}
    (hnext : ∀ n, n ≤ N → Sim S fin n (D (pure ())) S.connect)
    (habsurd : ∀ n, n ≤ N → Sim S fin n (D M.panic) (.over .refused)) :
    Sim S fin N (D (p.localPairPrompt p.templateSpec)) .userFile := by
  have htell : ∀ n, n ≤ N → ∀ text, Sim S fin n (D (do
      let _ ← (PrintFacility.stderr p.env.hasPrintf).writeAll text
      pure ())) (S.tell text) := by
    intro n hn text
    rw [← hf.prints]
    exact sim_tell (C := fun m => D (m >>= fun _ => pure ())) (around_comp hD (around_bind _))
      (fun m hm _ => by simpa using hnext m (by omega))
      (fun m hm => by rw [panic_bind]; exact habsurd m (by omega)) text
  unfold Pair.localPairPrompt
  rw [← hf.userFile]
  refine hD.call (x := .userFile) rfl ?_
  intro n hn r
  dsimp only
  rw [← hf.userText r]
  unfold Pair.ttyPrompt
  rw [← hf.tty]
  cases S.tty with
  | none =>
    simp only [pure_bind, Bool.false_eq_true, if_false]
    exact htell n (by omega) _
  | some tty =>
    simp only [bind_assoc]
    refine hD.call (x := .ttyOpen tty (S.userText r)) rfl ?_
    intro n' hn' ok
    cases ok
    · simp only [Bool.false_eq_true, if_false, pure_bind]
      exact htell n' (by omega) _
    · simp only [if_true]
      refine sim_writeAll (C := fun m => D (m >>= fun ok => if ok = true then pure () else
          (do let _ ← (PrintFacility.stderr p.env.hasPrintf).writeAll (S.userText r); pure ())))
        (w := fun b => M.sys (.ttyWrite b)) (again := fun rest => .tty (S.userText r) rest)
        (good := fun _ => True) (failed := S.tell (S.userText r)) (absurd := .over .refused) (N := n')
        (fun b => .sys _) lively_tty (fun _ _ _ => trivial) ?_ ?_ ?_ ?_ n' (Nat.le_refl _) _ trivial
      · intro m buf _ _ h
        exact (around_comp hD (around_bind _)).call (x := .tty (S.userText r) buf) rfl h
      · intro m hm; simpa using hnext m (by omega)
      · intro m hm; simpa using htell m (by omega) (S.userText r)
      · intro m hm; rw [panic_bind]; exact habsurd m (by omega)

theorem vetted_iff (d : Stat) : S.vetted d ↔ ¬ (d.mode &&& Socket.S_IFDIR = 0) ∧ ¬ (d.uid ≠ S.root) ∧
    ¬ (d.mode &&& (Socket.S_IWGRP ||| Socket.S_IWOTH) ≠ 0) := by
  have e : Socket.S_IWGRP ||| Socket.S_IWOTH = 0o022 := by decide
  rw [e]
  simp [Session.vetted, Socket.S_IFDIR]

theorem sim_enforce {D : M Bool → M ρ} (hD : Around D) {N : Nat} {path : Bytes} (hroot : S.root = rt.euid)
    (hdir : S.dir = Path.parent path) {mode : Nat} (hmode : S.mode = some mode)
    (hok : ∀ n, n ≤ N → Sim S fin n (D (pure true)) .look)
    (hbad : ∀ n, n ≤ N → Sim S fin n (D (pure false)) S.failed) :
    Sim S fin N (D (Socket.enforceOwnership rt path)) S.connect := by
  unfold Socket.enforceOwnership Session.connect
  rw [hmode, ← hdir]
  cases S.dir with
  | none => exact hbad N (Nat.le_refl _)
  | some d =>
    dsimp only
    by_cases h0 : (0 : UInt8) ∈ d
    · rw [if_pos h0, if_pos h0]; exact hbad N (Nat.le_refl _)
    · rw [if_neg h0, if_neg h0]
      refine hD.call (x := .vet d) rfl ?_
      intro n hn r
      cases r with
      | none => exact hbad n (by omega)
      | some st =>
        dsimp only
        by_cases hv : S.vetted st
        · rw [if_pos hv]
          obtain ⟨h1, h2, h3⟩ := (vetted_iff st).1 hv
          rw [if_neg h1, if_neg (by rwa [← hroot]), if_neg h3]
          exact hok n (by omega)
        · rw [if_neg hv]
          have : (if st.mode &&& Socket.S_IFDIR = 0 then pure false
              else if st.uid ≠ rt.euid then pure false
              else if st.mode &&& (Socket.S_IWGRP ||| Socket.S_IWOTH) ≠ 0 then pure false
              else pure true : M Bool) = pure false := by
            rw [vetted_iff, hroot] at hv
            split
            · rfl
            · split
              · rfl
              · split
                · rfl
                · exact absurd ⟨by assumption, by assumption, by assumption⟩ hv
          rw [this]
          exact hbad n (by omega)

theorem sim_tidy {D : M Bool → M ρ} (hD : Around D) {N old : Nat} {c : Option Conn}
    (h : ∀ n, n ≤ N → ∀ b, Sim S fin n (D (pure b)) (.unmask old c)) :
    Sim S fin N (D (Socket.unlink S.path)) (.tidy old c) := by
  unfold Socket.unlink
  refine hD.call (x := .tidy old c) rfl ?_
  intro n hn r
  match r with
  | none => exact h n (by omega) true
  | some false => exact h n (by omega) false
  | some true =>
    refine hD.call' (x := .remove old c) rfl ?_
    intro m hm ok
    exact h m (by omega) ok

theorem sim_look {D : M Bool → M ρ} (hD : Around D) {N : Nat}
    (hok : ∀ n, n ≤ N → Sim S fin n (D (pure true)) .mask)
    (hbad : ∀ n, n ≤ N → Sim S fin n (D (pure false)) S.failed) :
    Sim S fin N (D (Socket.unlink S.path)) .look := by
  unfold Socket.unlink
  refine hD.call (x := .look) rfl ?_
  intro n hn r
  match r with
  | none => exact hok n (by omega)
  | some false => exact hbad n (by omega)
  | some true =>
    refine hD.call' (x := .stale) rfl ?_
    intro m hm ok
    cases ok
    · exact hbad m (by omega)
    · exact hok m (by omega)

theorem sim_acceptOne {D : M (Option Conn) → M ρ} (hD : Around D) {N old fd mode : Nat}
    (hmode : S.mode = some mode) (hfds : S.fds = rt.fdSetSize)
    (h : ∀ n, n ≤ N → ∀ c, Sim S fin n (D (pure c)) (.tidy old c))
    (hpanic : ∀ n, n ≤ N → Sim S fin n (D M.panic) (.over .refused)) :
    Sim S fin N (D (Socket.acceptOne rt S.path S.uid S.gid mode fd))
      (if (0 : UInt8) ∈ S.path then .tidy old none else .own old fd) := by
  unfold Socket.acceptOne
  by_cases h0 : (0 : UInt8) ∈ S.path
  · rw [if_pos h0, if_pos h0]; exact h N (Nat.le_refl _) none
  · rw [if_neg h0, if_neg h0]
    refine hD.call (x := .own old fd) rfl ?_
    intro n hn ok
    rw [hmode]
    cases ok
    · exact h n (by omega) none
    · dsimp only
      rw [if_pos rfl]
      refine hD.call (x := .permit old fd mode) rfl ?_
      intro n1 hn1 ok
      cases ok
      · exact h n1 (by omega) none
      · rw [if_pos rfl, if_pos rfl, hfds]
        by_cases hfd : rt.fdSetSize ≤ fd
        · rw [if_pos hfd, if_neg (by omega)]; exact hpanic n1 (by omega)
        · rw [if_neg hfd, if_pos (by omega)]
          refine hD.call (x := .wait old fd) rfl ?_
          intro n2 hn2 r
          obtain ⟨i, b⟩ := r
          by_cases h1 : i = 1
          · subst h1
            cases b
            · exact hpanic n2 (by omega)
            · rw [if_pos rfl]
              refine hD.call' (x := .admit old fd) rfl ?_
              intro n3 hn3 c
              exact h n3 (by omega) c
          · rw [if_neg (by simp [h1])]
            by_cases h2 : i = -1
            · subst h2
              rw [if_pos rfl]
              exact h n2 (by omega) none
            · rw [if_neg h2]
              refine Eq.mpr (congrArg (fun m => Sim S fin n2 (D m) _) ?_) (hpanic n2 (by omega))
              split <;> simp_all

theorem sim_open' (hf : Fits rt p S) {D : M (Option Conn) → M ρ} (hD : Around D) {N mode : Nat}
    (hmode : p.socketMode = some mode)
    (hnone : ∀ n, n ≤ N → Sim S fin n (D (pure none)) S.failed)
    (hsome : ∀ n, n ≤ N → ∀ c, Sim S fin n (D (pure (some c))) (.pairFile c.fd))
    (hpanic : ∀ n, n ≤ N → Sim S fin n (D M.panic) (.over .refused)) :
    Sim S fin N (D (Socket.open' rt p.socketPath p.socketUid p.socketGid mode)) S.connect := by
  have hm : S.mode = some mode := by rw [hf.mode, hmode]
  unfold Socket.open'
  rw [← hf.path, ← hf.uid, ← hf.gid]
  refine sim_enforce (D := fun m => D (m >>= fun ok => _)) (around_comp hD (around_bind _)) hf.root
    (by rw [hf.dir, hf.path]) hm ?_ ?_
  · intro n hn
    simp only [pure_bind, if_true]
    refine sim_look (D := fun m => D (m >>= fun ok => _)) (around_comp hD (around_bind _)) ?_ ?_
    · intro n1 hn1
      simp only [pure_bind, if_true]
      refine hD.call (x := .mask) rfl ?_
      intro n2 hn2 old
      refine hD.call (x := .bind old) rfl ?_
      have hrest : ∀ n, n < n2 → ∀ c, Sim S fin n (D (do
          let _ ← Socket.unlink S.path
          let _ ← M.sys (.umask old)
          pure c)) (.tidy old c) := by
        intro n hn c
        refine sim_tidy (D := fun m => D (m >>= fun _ => _)) (around_comp hD (around_bind _)) ?_
        intro n3 hn3 _
        simp only [pure_bind]
        refine hD.call (x := .unmask old c) rfl ?_
        intro n4 hn4 _
        cases c with
        | none => exact hnone n4 (by omega)
        | some c => exact hsome n4 (by omega) c
      intro n3 hn3 r
      match r with
      | .failed => simpa using hrest n3 hn3 none
      | .failLeft => simpa using hrest n3 hn3 none
      | .bound fd =>
        refine sim_acceptOne (D := fun m => D (m >>= fun c => _)) (around_comp hD (around_bind _)) hm hf.fds ?_ ?_
        · intro n4 hn4 c
          simpa using hrest n4 (by omega) c
        · intro n4 hn4
          rw [panic_bind]; exact hpanic n4 (by omega)
    · intro n1 hn1
      simpa using hnone n1 (by omega)
  · intro n hn
    simpa using hnone n hn

theorem delivers_prompt (fd : Nat) : Delivers S fd .prompt (.guard fd .flush)
    (.hangup fd (some (b! "couldn't establish communications with the pair"))) (.hangup fd none) :=
  ⟨fun _ _ => rfl, fun _ => rfl, fun _ _ => by
    show Move.call _ _ = _
    congr 1; funext ok; cases ok <;> rfl, fun _ _ => rfl⟩

theorem delivers_echo (fd : Nat) (b : UInt8) : Delivers S fd (.echo b) (.guard fd (.newline b (b! "\n")))
    (.guard fd (.newline b (b! "\n"))) (.hangup fd none) :=
  ⟨fun _ _ => rfl, fun _ => rfl, fun _ _ => by
    show Move.call _ _ = _
    congr 1; funext ok; cases ok <;> rfl, fun _ _ => rfl⟩

theorem delivers_newline (fd : Nat) (b : UInt8) : Delivers S fd (.newline b) (S.decide fd b) (S.decide fd b)
    (.hangup fd none) :=
  ⟨fun _ _ => rfl, fun _ => rfl, fun _ _ => by
    show Move.call _ _ = _
    congr 1; funext ok; cases ok <;> rfl, fun _ _ => rfl⟩

theorem delivers_mirror (fd : Nat) : Delivers S fd .mirror (.over (.granted none))
    (.refuse S.reports (b! "pair ended the session")) (.over .refused) :=
  ⟨fun _ _ => rfl, fun _ => rfl, fun _ _ => by
    show Move.call _ _ = _
    congr 1; funext ok; cases ok <;> rfl, fun _ _ => rfl⟩

theorem responseByte_eq (r : ReadRes 1) : Pair.responseByte r = Session.answerIn r := by
  match r with
  | .data [] _ => rfl
  | .data (_ :: _) _ => rfl
  | .intr => rfl
  | .fail => rfl

theorem sim_remotePairPrompt (hf : Fits rt p S) {D : M (Except ErrorKind Unit) → M ρ} (hD : Around D) {N fd : Nat}
    (hok : ∀ n, n ≤ N → Sim S fin n (D (pure (.ok ())))
      (if S.occupied then .spare fd else .over (.granted (some fd))))
    (herr : ∀ n, n ≤ N → ∀ e, Sim S fin n (D (pure (.error e))) (.hangup fd (some e.display)))
    (hpanic : ∀ n, n ≤ N → Sim S fin n (D M.panic) (.hangup fd none)) :
    Sim S fin N (D (p.remotePairPrompt p.templateSpec fd)) (.pairFile fd) := by
  unfold Pair.remotePairPrompt
  rw [← hf.pairFile]
  refine hD.call (x := .pairFile fd) rfl ?_
  intro n hn r
  dsimp only
  rw [← hf.pairText r]
  refine sim_deliver (C := fun m => D (m >>= fun ok => _)) (around_comp hD (around_bind _))
    (delivers_prompt fd) ?_ ?_ ?_ (S.pairText r)
  · intro n1 hn1
    simp only [pure_bind, if_true]
    rw [flush_bind]
    refine hD.call (x := .guard fd .flush) rfl ?_
    intro n2 hn2 o
    have hbad : ∀ m, m ≤ N → Sim S fin m (D (pure (.error .communicationError)))
        (S.after fd .flush .failed) := fun m hm => herr m hm .communicationError
    cases o with
    | none => simpa using hbad n2 (by omega)
    | some old =>
      refine hD.call (x := .arm fd .flush old) rfl ?_
      intro n3 hn3 ok
      cases ok
      · simpa using hbad n3 (by omega)
      · refine hD.call (x := .disarm fd .flush old .flushed) rfl ?_
        intro n4 hn4 ok
        cases ok
        · simpa using hbad n4 (by omega)
        · simp only [if_true]
          rw [read_bind]
          refine hD.call (x := .guard fd .answer) rfl ?_
          intro n5 hn5 o
          have hbad : ∀ m, m ≤ N → Sim S fin m (D (pure (.error .sessionDeclined)))
              (S.after fd .answer .failed) := fun m hm => herr m hm .sessionDeclined
          cases o with
          | none => exact hbad n5 (by omega)
          | some old =>
            refine hD.call (x := .arm fd .answer old) rfl ?_
            intro n6 hn6 ok
            cases ok
            · exact hbad n6 (by omega)
            · refine hD.call (x := .act fd .answer old) rfl ?_
              intro n7 hn7 r
              refine hD.call (x := .disarm fd .answer old (.byte (Session.answerIn r))) rfl ?_
              intro n8 hn8 ok
              cases ok
              · exact hbad n8 (by omega)
              · simp only [if_true, responseByte_eq]
                cases Session.answerIn r with
                | none => exact hbad n8 (by omega)
                | some b =>
                  dsimp only
                  have hnl : ∀ m, m ≤ n8 → Sim S fin m (D (do
                      let _ ← Socket.writeAll fd (b! "\n")
                      if b = 121 ∨ b = 89 then pure (.ok ()) else pure (.error .sessionDeclined)))
                      (.guard fd (.newline b (b! "\n"))) := by
                    intro m hm
                    have hdec : ∀ k, k ≤ m → Sim S fin k (D (if b = 121 ∨ b = 89 then pure (.ok ())
                        else pure (.error .sessionDeclined))) (S.decide fd b) := by
                      intro k hk
                      unfold Session.decide
                      by_cases hb : b = 121 ∨ b = 89
                      · rw [if_pos hb, if_pos hb]; exact hok k (by omega)
                      · rw [if_neg hb, if_neg hb]; exact herr k (by omega) .sessionDeclined
                    refine sim_deliver (C := fun m => D (m >>= fun _ => _)) (around_comp hD (around_bind _))
                      (delivers_newline fd b) ?_ ?_ ?_ (b! "\n")
                    · intro k hk; rw [pure_bind]; exact hdec k hk
                    · intro k hk; rw [pure_bind]; exact hdec k hk
                    · intro k hk; rw [panic_bind]; exact hpanic k (by omega)
                  refine sim_deliver (C := fun m => D (m >>= fun _ => _)) (around_comp hD (around_bind _))
                    (delivers_echo fd b) ?_ ?_ ?_ [b]
                  · intro k hk; rw [pure_bind]; exact hnl k hk
                  · intro k hk; rw [pure_bind]; exact hnl k hk
                  · intro k hk; rw [panic_bind]; exact hpanic k (by omega)
  · intro n1 hn1
    rw [pure_bind]; exact herr n1 (by omega) .communicationError
  · intro n1 hn1
    rw [panic_bind]; exact hpanic n1 (by omega)

theorem unwind_panic (cl : M Unit) {fd : Nat} (h : cl = Socket.close fd) :
    M.onUnwind (M.panic : M α) cl = (do let _ ← M.sys (.shutdown fd); M.panic) := by
  subst h
  funext s
  cases s <;> rfl

/-- `SudoPair::open` for a session that needs a pair, in a context that knows what to do with each of its
results. -/
theorem sim_pairOpen {env : IoEnv} (hf : Fits rt (Pair.ofEnv env) S) {D : M (Except ErrorKind Pair) → M ρ}
    (hD : Around D) {N : Nat} (hx : (Pair.ofEnv env).isExempt rt.debug = some false)
    (hok : ∀ n, n ≤ N → ∀ fd, Sim S fin n (D (pure (.ok { Pair.ofEnv env with socket := some fd })))
      (if S.occupied then .spare fd else .over (.granted (some fd))))
    (herr : ∀ n, n ≤ N → ∀ e : ErrorKind, Sim S fin n (D (pure (.error e))) (.refuse S.reports e.display))
    (hpanic : ∀ n, n ≤ N → Sim S fin n (D M.panic) (.over .refused)) :
    Sim S fin N (D (Pair.open rt env))
      (if (Pair.ofEnv env).toUserAndGroup then
        .refuse S.reports (b! "the -u and -g options may not both be specified") else .userFile) := by
  unfold Pair.open
  show Sim S fin N (D (M.ofOption ((Pair.ofEnv env).isExempt rt.debug) >>= _)) _
  rw [hx]
  show Sim S fin N (D (pure false >>= _)) _
  rw [pure_bind]
  simp only [Bool.false_eq_true, if_false]
  show Sim S fin N (D (if (Pair.ofEnv env).toUserAndGroup = true then _ else _)) _
  by_cases hug : (Pair.ofEnv env).toUserAndGroup = true
  · rw [if_pos hug, if_pos hug]; exact herr N (Nat.le_refl _) .sudoToUserAndGroup
  · rw [if_neg hug, if_neg hug]
    refine sim_localPairPrompt (D := fun m => D (m >>= fun _ => _)) hf (around_comp hD (around_bind _)) ?_ ?_
    · intro n hn
      rw [pure_bind]
      unfold Pair.remotePairConnect
      show Sim S fin n (D ((M.ofOption (Pair.ofEnv env).socketMode >>= _) >>= _)) _
      cases hmode : (Pair.ofEnv env).socketMode with
      | none =>
        have : S.connect = .over .refused := by
          unfold Session.connect
          rw [hf.mode, hmode]
        rw [this]
        show Sim S fin n (D ((M.panic >>= _) >>= _)) _
        rw [panic_bind, panic_bind]
        exact hpanic n hn
      | some mode =>
        show Sim S fin n (D ((pure mode >>= _) >>= _)) _
        rw [pure_bind, bind_assoc]
        refine sim_open' (D := fun m => D (m >>= fun _ => _)) hf (around_comp hD (around_bind _)) hmode ?_ ?_ ?_
        · intro n1 hn1
          simp only [pure_bind]; exact herr n1 (by omega) .communicationError
        · intro n1 hn1 c
          simp only [pure_bind]
          have hclose : ∀ m, m ≤ n1 → ∀ e, Sim S fin m (D (M.onUnwind (do
              Socket.close c.fd
              pure (.error e)) (Socket.close c.fd))) (.hangup c.fd (some e.display)) := by
            intro m hm e
            unfold Socket.close
            rw [bind_assoc]
            refine (around_comp hD (around_unwind _)).call (x := .hangup c.fd (some e.display)) rfl ?_
            intro k hk _
            simp only [pure_bind, unwind_pure]
            exact herr k (by omega) e
          refine sim_remotePairPrompt (D := fun m => D (M.onUnwind (m >>= fun r => _) (Socket.close c.fd))) hf
            (around_comp hD (around_comp (around_unwind _) (around_bind _))) ?_ ?_ ?_
          · intro m hm
            simp only [pure_bind, unwind_pure]
            exact hok m (by omega) c.fd
          · intro m hm e
            simp only [pure_bind]
            exact hclose m hm e
          · intro m hm
            rw [panic_bind, unwind_panic _ rfl]
            refine hD.call (x := .hangup c.fd none) rfl ?_
            intro k hk _
            exact hpanic k (by omega)
        · intro n1 hn1
          rw [panic_bind]; exact hpanic n1 (by omega)
    · intro n hn
      rw [panic_bind]; exact hpanic n hn

/-! ### The session -/

/-- `S` describes the session of `env`: what its environment and the plugin's options say about the
terminal, the prompts and the socket.  `reports`: sudo lets `open` print; `occupied`: there is a pairing
already. -/
structure SessionOf (rt : Rt) (env : IoEnv) (reports occupied : Bool) (S : Session) : Prop where
  tty      : S.tty = env.userInfo.tty
  prints   : S.prints = env.hasPrintf
  reports  : S.reports = reports
  occupied : S.occupied = occupied
  userFile : S.userFile = (optionsOf env).userPromptPath
  userText : ∀ r, Expands 37 (promptVars (Pair.ofEnv env)) (r.getD (b! "%B %u %p\n")) (S.userText r)
  pairFile : S.pairFile = (optionsOf env).pairPromptPath
  pairText : ∀ r, Expands 37 (promptVars (Pair.ofEnv env)) (r.getD (b! "%U@%h:%d$ %C\ny/n? [n]: ")) (S.pairText r)
  /-- `<socket_dir>/<uid>.<pid>.sock` -/
  path     : S.path = sessionPath env
  dir      : ∃ d, S.dir = some d ∧ DirPart S.path (optionsOf env).socketDir d
  root     : S.root = rt.euid
  /-- The socket belongs to the target user, or to the target group of `-g`. -/
  uid      : S.uid = if env.userInfo.uid = env.commandInfo.runasEuid then noId else env.commandInfo.runasEuid
  gid      : S.gid = if env.settings.runasGroup = none then noId else env.commandInfo.runasEgid
  mode     : S.mode = if env.userInfo.uid ≠ env.commandInfo.runasEuid then some 0o200
    else if env.settings.runasGroup ≠ none then some 0o020 else none
  fds      : S.fds = rt.fdSetSize

theorem fits_of {env : IoEnv} {reports occupied : Bool} (h : SessionOf rt env reports occupied S) :
    Fits rt (Pair.ofEnv env) S := by
  have hpath : S.path = (Pair.ofEnv env).socketPath := by rw [h.path, sessionPath_eq]
  refine ⟨h.tty, h.prints, h.userFile, fun r => ?_, h.pairFile, fun r => ?_, hpath, ?_, h.root,
    ?_, ?_, ?_, h.fds⟩
  · exact ((C28_variables (Pair.ofEnv env) _ _).2 (h.userText r)).symm
  · exact ((C28_variables (Pair.ofEnv env) _ _).2 (h.pairText r)).symm
  · obtain ⟨d, h1, h2⟩ := h.dir
    rw [hpath] at h2
    exact h1.trans ((dirPart_socket (Pair.ofEnv env) d).1 h2).symm
  · rw [h.uid]
    show _ = if (Pair.ofEnv env).toUser = true then env.commandInfo.runasEuid else 4294967295
    by_cases hu : env.userInfo.uid = env.commandInfo.runasEuid <;> simp [Pair.toUser, Pair.ofEnv, hu, noId]
  · rw [h.gid]
    show _ = if (Pair.ofEnv env).toExplicitGroup = true then env.commandInfo.runasEgid else 4294967295
    cases hg : env.settings.runasGroup <;> simp [Pair.toExplicitGroup, Pair.ofEnv, hg, noId]
  · rw [h.mode]
    unfold Pair.socketMode
    by_cases hu : env.userInfo.uid = env.commandInfo.runasEuid <;> cases hg : env.settings.runasGroup <;>
      simp [Pair.toUser, Pair.toExplicitGroup, Pair.ofEnv, hu, hg, Socket.S_IWUSR, Socket.S_IWGRP]

/-- The session of an environment. -/
def sessionFor (rt : Rt) (env : IoEnv) (reports occupied : Bool) : Session where
  tty := env.userInfo.tty
  prints := env.hasPrintf
  reports := reports
  occupied := occupied
  userFile := (optionsOf env).userPromptPath
  userText := fun r => (Pair.ofEnv env).templateSpec.expand (r.getD (b! "%B %u %p\n"))
  pairFile := (optionsOf env).pairPromptPath
  pairText := fun r => (Pair.ofEnv env).templateSpec.expand (r.getD (b! "%U@%h:%d$ %C\ny/n? [n]: "))
  path := sessionPath env
  dir := Path.parent (Pair.ofEnv env).socketPath
  root := rt.euid
  uid := if env.userInfo.uid = env.commandInfo.runasEuid then noId else env.commandInfo.runasEuid
  gid := if env.settings.runasGroup = none then noId else env.commandInfo.runasEgid
  mode := if env.userInfo.uid ≠ env.commandInfo.runasEuid then some 0o200
    else if env.settings.runasGroup ≠ none then some 0o020 else none
  fds := rt.fdSetSize

theorem socketDirPart {env : IoEnv} {d : Bytes} (h : Path.parent (Pair.ofEnv env).socketPath = some d) :
    DirPart (sessionPath env) (optionsOf env).socketDir d := by
  rw [← sessionPath_eq]
  exact (dirPart_socket (Pair.ofEnv env) d).2 h

theorem sessionOf_sessionFor (rt : Rt) (env : IoEnv) (reports occupied : Bool) :
    SessionOf rt env reports occupied (sessionFor rt env reports occupied) :=
  ⟨rfl, rfl, rfl, rfl, rfl, fun _ => (C28_variables (Pair.ofEnv env) _ _).1 rfl, rfl,
    fun _ => (C28_variables (Pair.ofEnv env) _ _).1 rfl, rfl,
    let ⟨d, h, _⟩ := C16_parent (Pair.ofEnv env); ⟨d, h, socketDirPart h⟩, rfl, rfl, rfl, rfl, rfl⟩

/-! ### The callbacks -/

/-- Does the policy want this logged? -/
def wanted (ci : CommandInfo) : Facility → Bool
  | .ttyin  => ci.iologTtyin
  | .ttyout => ci.iologTtyout
  | .stdin  => ci.iologStdin
  | .stdout => ci.iologStdout
  | .stderr => ci.iologStderr

/-- Mirroring `text`, if there is a pair. -/
def mirrorTo (fd : Option Nat) (text : Bytes) : Step :=
  match fd with
  | none => .over (.granted none)
  | some fd => if text = [] then .over (.granted none) else .guard fd (.mirror text)

/-- What each callback does in each state: the phase of the machine in which it starts, and what it
returns and leaves behind for each verdict. -/
inductive Protocol (rt : Rt) (S : Session) : Core.Call → State → Step → (Verdict → Int × State) → Prop
  /-- Arguments that crash the conversion. -/
  | openCrash {a st} : Crash rt a → Protocol rt S (.open a) st (.over .refused) fun _ => (-1, st)
  /-- Arguments that cannot be converted. -/
  | openBad {a st msg} : Complaint rt a msg →
      Protocol rt S (.open a) st (.refuse a.hasPrintf msg) fun _ => (-1, st)
  /-- `sudo -V`: there is no command. -/
  | openBare {a st env0 env} : IoEnv.new rt a = some (.ok env0) → env = st.env.getD env0 →
      env.commandInfo.command = [] →
      Protocol rt S (.open a) st (.over (.granted none)) fun _ => (1, { st with env := some env })
  /-- A debug build on an environment that breaks sudo's rules. -/
  | openTrips {a st env0 env} : IoEnv.new rt a = some (.ok env0) → env = st.env.getD env0 →
      env.commandInfo.command ≠ [] → rt.debug = true → Trips env (optionsOf env) →
      Protocol rt S (.open a) st (.over .refused) fun _ => (-1, { st with env := some env })
  /-- No pair is needed. -/
  | openExempt {a st env0 env} : IoEnv.new rt a = some (.ok env0) → env = st.env.getD env0 →
      env.commandInfo.command ≠ [] → ¬ (rt.debug = true ∧ Trips env (optionsOf env)) → SessionExempt env →
      Protocol rt S (.open a) st (.over (.granted none))
        fun _ => (1, ⟨some env, some (st.plugin.getD (Pair.ofEnv env))⟩)
  /-- `-u` and `-g` together. -/
  | openBoth {a st env0 env} : IoEnv.new rt a = some (.ok env0) → env = st.env.getD env0 →
      env.commandInfo.command ≠ [] → ¬ (rt.debug = true ∧ Trips env (optionsOf env)) → ¬ SessionExempt env →
      env.userInfo.uid ≠ env.commandInfo.runasEuid → env.settings.runasGroup ≠ none →
      Protocol rt S (.open a) st
        (.refuse a.hasPrintf (b! "the -u and -g options may not both be specified"))
        fun _ => (-1, { st with env := some env })
  /-- A pair has to approve. -/
  | openAsk {a st env0 env} : IoEnv.new rt a = some (.ok env0) → env = st.env.getD env0 →
      env.commandInfo.command ≠ [] → ¬ (rt.debug = true ∧ Trips env (optionsOf env)) → ¬ SessionExempt env →
      ¬ (env.userInfo.uid ≠ env.commandInfo.runasEuid ∧ env.settings.runasGroup ≠ none) →
      SessionOf rt env a.hasPrintf st.plugin.isSome S →
      Protocol rt S (.open a) st .userFile fun
        | .refused => (-1, { st with env := some env })
        | .granted fd => (1, ⟨some env, some (st.plugin.getD { Pair.ofEnv env with socket := fd })⟩)
  /-- `close` with and without a pair. -/
  | close {st} : (∀ p, st.plugin = some p → p.socket = none) →
      Protocol rt S .close st (.over (.granted none)) fun _ => (0, ⟨none, none⟩)
  | closePaired {st p fd} : st.plugin = some p → p.socket = some fd →
      Protocol rt S .close st (.bye fd) fun _ => (0, ⟨none, none⟩)
  /-- The version callback. -/
  | versionNone {st} : st.env = none → Protocol rt S .showVersion st (.over .refused) fun _ => (-1, st)
  | version {st env} : st.env = some env →
      Protocol rt S .showVersion st
        (.says env.hasPrintf 4 (.granted none) [b! "sudo_pair", b! " I/O plugin version ", b! "1.2.0", b! "\n"])
        fun v => (if v = .refused then -1 else 1, st)
  /-- Callbacks outside a session. -/
  | logNone {st f buf} : st.env = none ∨ st.plugin = none →
      Protocol rt S (.log f buf) st (.over .refused) fun _ => (0, st)
  | resizeNone {st l c} : st.env = none ∨ st.plugin = none →
      Protocol rt S (.changeWinsize l c) st (.over .refused) fun _ => (0, st)
  /-- What the policy does not want logged, and what the user types. -/
  | logUnwanted {st f buf env p} : st.env = some env → st.plugin = some p →
      f = .ttyin ∨ wanted env.commandInfo f = false →
      Protocol rt S (.log f buf) st (.over (.granted none)) fun _ => (1, st)
  /-- Redirected input. -/
  | stdinTrips {st buf env p} : st.env = some env → st.plugin = some p → env.commandInfo.iologStdin = true →
      rt.debug = true → Trips p.env p.options →
      Protocol rt S (.log .stdin buf) st (.over .refused) fun _ => (0, st)
  | stdinExempt {st buf env p} : st.env = some env → st.plugin = some p → env.commandInfo.iologStdin = true →
      ¬ (rt.debug = true ∧ Trips p.env p.options) → Exempt p.env p.options →
      Protocol rt S (.log .stdin buf) st (.over (.granted none)) fun _ => (1, st)
  | stdin {st buf env p} : st.env = some env → st.plugin = some p → env.commandInfo.iologStdin = true →
      ¬ (rt.debug = true ∧ Trips p.env p.options) → ¬ Exempt p.env p.options →
      Protocol rt S (.log .stdin buf) st
        (.refuse env.hasPrintf (b! "redirection of stdin to paired sessions is prohibited")) fun _ => (0, st)
  /-- Output of the session, and changes of the terminal's size, go to the pair. -/
  | output {st f buf env p} : st.env = some env → st.plugin = some p → f = .ttyout ∨ f = .stdout ∨ f = .stderr →
      wanted env.commandInfo f = true → S.reports = env.hasPrintf →
      Protocol rt S (.log f buf) st (mirrorTo p.socket buf) fun v => (if v = .refused then 0 else 1, st)
  | resize {st l c env p} : st.env = some env → st.plugin = some p → S.reports = env.hasPrintf →
      Protocol rt S (.changeWinsize l c) st
        (mirrorTo p.socket (b! "\x1b[8;" ++ decimal l ++ b! ";" ++ decimal c ++ b! "t"))
        fun v => (if v = .refused then 0 else 1, st)

/-! ### Exactness -/

theorem runMachine_over (S : Session) (v : Verdict) (s : Sched) : runMachine S.move (.over v) s = (.ok v, [], s) := by
  cases s <;> rfl

theorem exact_of {m : M ρ} {x : Step} (h : ∀ n, Sim S fin n m x) (s : Sched) :
    m s = withResult fin (runMachine S.move x s) := h s.length s (Nat.le_refl _)

theorem exact_over {m : M ρ} {v : Verdict} (h : m = pure (fin v)) (s : Sched) :
    m s = withResult fin (runMachine S.move (.over v) s) := by
  rw [h, runMachine_over]; rfl

theorem open_made {a : OpenArgs} {st : State} {env0 env : IoEnv} (hn : IoEnv.new rt a = some (.ok env0))
    (he : env = st.env.getD env0) : Core.open rt a st = (do
      match ← M.catchUnwind (Core.makePlugin rt a.hasPrintf env) with
      | none => pure (-1, { st with env := some env })
      | some (.error status) => pure (status, { st with env := some env })
      | some (.ok p) =>
        match st.plugin with
        | none   => pure (1, { st with env := some env, plugin := some p })
        | some _ =>
          p.drop
          pure (1, { st with env := some env })) := by
  subst he
  unfold Core.open Core.makeEnv
  rw [hn, ofOption_some_bind]
  dsimp only
  rw [catch_pure, pure_bind]
  rfl

/-- The rest of the `open` callback around `SudoPair::open`. -/
def afterOpen (hasPrintf : Bool) (env : IoEnv) (st : State) (m : M (Except ErrorKind Pair)) : M (Int × State) := do
  match ← M.catchUnwind (do
    match ← m with
    | .ok p => pure (.ok p)
    | .error e =>
      let _ ← (PrintFacility.stderr hasPrintf).writeError e.display none
      pure (.error Core.OPEN_DENY) : M (Except Int Pair)) with
  | none => pure (-1, { st with env := some env })
  | some (.error status) => pure (status, { st with env := some env })
  | some (.ok p) =>
    match st.plugin with
    | none   => pure (1, { st with env := some env, plugin := some p })
    | some _ =>
      Pair.drop p
      pure (1, { st with env := some env })

theorem around_afterOpen (hasPrintf : Bool) (env : IoEnv) (st : State) : Around (afterOpen hasPrintf env st) := by
  unfold afterOpen
  exact around_comp (around_bind _) (around_comp around_catch (around_bind _))

theorem open_pair {a : OpenArgs} {st : State} {env0 env : IoEnv} (hn : IoEnv.new rt a = some (.ok env0))
    (he : env = st.env.getD env0) (hc : env.commandInfo.command ≠ []) :
    Core.open rt a st = afterOpen a.hasPrintf env st (Pair.open rt env) := by
  rw [open_made hn he]
  unfold Core.makePlugin
  rw [if_neg (fun h => hc ((path_eq_nil _).1 h))]
  rfl

/-- `finish` in a context. -/
theorem sim_finish {env : IoEnv} {N : Nat} (hr : S.reports = env.hasPrintf) {C : M Int → M ρ}
    (hC : Around C) (h0 : ∀ n, n ≤ N → Sim S fin n (C (pure 0)) (.over .refused))
    (hp : ∀ n, n ≤ N → Sim S fin n (C M.panic) (.over .refused)) (e : ErrorKind) :
    Sim S fin N (C (Core.finish env (.error e))) (.refuse S.reports e.display) := by
  rw [hr]
  unfold Core.finish
  refine sim_refuse (C := fun m => C (m >>= fun _ => _)) (around_comp hC (around_bind _)) ?_ ?_ e.display
  · intro n hn b
    rw [pure_bind]; exact h0 n hn
  · intro n hn
    rw [panic_bind]; exact hp n hn

theorem log_made {f : Facility} {buf : Bytes} {st : State} {env : IoEnv} {p : Pair} (he : st.env = some env)
    (hp : st.plugin = some p) : Core.log rt f buf st = (do
      let r ← M.catchUnwind (
        if wanted env.commandInfo f = true then do Core.finish env (← Core.handler rt p buf f) else pure 1)
      pure (r.getD 0)) := by
  unfold Core.log
  rw [he, hp, ofOption_some_bind, ofOption_some_bind]
  have : wanted env.commandInfo f = Core.hint env.commandInfo f := by cases f <;> rfl
  rw [this]
  cases Core.hint env.commandInfo f <;> rfl

/-- Mirroring, with what surrounds it in a callback. -/
theorem sim_logOutput {env : IoEnv} {st : State} {buf : Bytes} {n : Nat} (hr : S.reports = env.hasPrintf) :
    Sim S (fun v => (if v = .refused then (0 : Int) else 1, st)) n
      ((M.catchUnwind (p.logOutput buf >>= Core.finish env) >>= fun r => pure (r.getD Core.LOG_DENY)) >>=
        fun r => pure (r, st)) (mirrorTo p.socket buf) := by
  unfold Pair.logOutput mirrorTo
  cases p.socket with
  | none => exact sim_over (v := .granted none)
  | some fd =>
    dsimp only
    refine sim_deliver
      (C := fun m => (M.catchUnwind ((m >>= fun _ => _) >>= fun _ => _) >>= fun _ => _) >>= fun _ => _)
      (around_comp (around_bind _) (around_comp (around_bind _) (around_comp around_catch
        (around_comp (around_bind _) (around_bind _)))))
      (delivers_mirror fd) ?_ ?_ ?_ buf
    · intro m hm
      rw [pure_bind, if_pos rfl, pure_bind]
      exact sim_over (v := .granted none)
    · intro m hm
      rw [pure_bind, if_neg (by simp), pure_bind]
      refine sim_finish hr
        (C := fun m => (M.catchUnwind m >>= fun _ => _) >>= fun _ => _)
        (around_comp (around_bind _) (around_comp (around_bind _) around_catch)) ?_ ?_ .sessionTerminated
      · intro k hk
        rw [catch_pure, pure_bind, pure_bind]
        exact sim_over (v := .refused)
      · intro k hk
        rw [catch_panic, pure_bind, pure_bind]
        exact sim_over (v := .refused)
    · intro m hm
      rw [panic_bind, panic_bind, catch_panic, pure_bind, pure_bind]
      exact sim_over (v := .refused)

/-- C63: every callback, in every state, behaves under every schedule of answers of the operating system
exactly like the machine: the same interactions in the same order, the same result, the same state left
behind. -/
theorem C63_exact {c : Core.Call} {st : State} {x : Step} {fin : Verdict → Int × State}
    (h : Protocol rt S c st x fin) (s : Sched) :
    Core.step rt c st s = withResult fin (runMachine S.move x s) := by
  induction h with
  | @openCrash a st hn =>
    rw [← C64_crash] at hn
    refine exact_over ?_ s
    show Core.open rt a st = _
    unfold Core.open Core.makeEnv
    rw [hn]
    rfl
  | @openBad a st msg hc =>
    obtain ⟨e, hn, rfl⟩ := (C64_complaint rt a msg).2 hc
    refine exact_of (fun n => ?_) s
    show Sim S _ n (Core.open rt a st) _
    unfold Core.open Core.makeEnv
    rw [hn, ofOption_some_bind]
    refine sim_refuse (C := fun m => M.catchUnwind (m >>= fun _ => _) >>= fun _ => _)
      (around_comp (around_bind _) (around_comp around_catch (around_bind _))) ?_ ?_ e.display
    · intro m hm b
      rw [pure_bind, catch_pure, pure_bind]
      exact sim_over
    · intro m hm
      rw [panic_bind, catch_panic, pure_bind]
      exact sim_over
  | @openBare a st env0 env hn he hc =>
    refine exact_over ?_ s
    show Core.open rt a st = _
    rw [open_made hn he]
    unfold Core.makePlugin
    rw [if_pos ((path_eq_nil _).2 hc)]
    rfl
  | @openTrips a st env0 env hn he hc hd ht =>
    refine exact_over ?_ s
    show Core.open rt a st = _
    rw [open_pair hn he hc]
    have : Pair.open rt env = M.panic := by
      unfold Pair.open
      show (M.ofOption ((Pair.ofEnv env).isExempt rt.debug) >>= _) = _
      rw [isExempt_trips (p := Pair.ofEnv env) hd ht]
      rfl
    rw [this]
    rfl
  | @openExempt a st env0 env hn he hc ht hx =>
    refine exact_over ?_ s
    show Core.open rt a st = _
    rw [open_pair hn he hc]
    have : Pair.open rt env = pure (.ok (Pair.ofEnv env)) := by
      unfold Pair.open
      show (M.ofOption ((Pair.ofEnv env).isExempt rt.debug) >>= _) = _
      rw [(isExempt_decides (p := Pair.ofEnv env) ht).1 hx]
      rfl
    rw [this]
    unfold afterOpen
    rw [pure_bind, catch_pure, pure_bind]
    dsimp only
    cases st.plugin <;> rfl
  | @openBoth a st env0 env hn he hc ht hx hu hg =>
    refine exact_of (fun n => ?_) s
    show Sim S _ n (Core.open rt a st) _
    rw [open_pair hn he hc]
    have : Pair.open rt env = pure (.error .sudoToUserAndGroup) := by
      unfold Pair.open
      show (M.ofOption ((Pair.ofEnv env).isExempt rt.debug) >>= _) = _
      rw [(isExempt_decides (p := Pair.ofEnv env) ht).2 hx, ofOption_some_bind, if_neg (by simp)]
      refine if_pos ?_
      cases hgg : env.settings.runasGroup
      · exact absurd hgg hg
      · simp [Pair.toUserAndGroup, Pair.toUser, Pair.toExplicitGroup, hu, hgg]
    rw [this]
    unfold afterOpen
    rw [pure_bind]
    refine sim_refuse (C := fun m => M.catchUnwind (m >>= fun _ => _) >>= fun _ => _)
      (around_comp (around_bind _) (around_comp around_catch (around_bind _))) ?_ ?_
      (ErrorKind.display .sudoToUserAndGroup)
    · intro m hm b
      rw [pure_bind, catch_pure, pure_bind]
      exact sim_over
    · intro m hm
      rw [panic_bind, catch_panic, pure_bind]
      exact sim_over
  | @openAsk a st env0 env hn he hc ht hx hug hS =>
    refine exact_of (fun n => ?_) s
    show Sim S _ n (Core.open rt a st) _
    rw [open_pair hn he hc]
    have hug' : (Pair.ofEnv env).toUserAndGroup = false := by
      rw [Bool.eq_false_iff]
      intro h
      apply hug
      simp only [Pair.toUserAndGroup, Pair.toUser, Pair.toExplicitGroup, Pair.ofEnv, Bool.and_eq_true] at h
      exact ⟨of_decide_eq_true h.1, by intro hg; rw [hg] at h; simp at h⟩
    have key := sim_pairOpen (S := S) (rt := rt) (N := n) (fits_of hS) (around_afterOpen a.hasPrintf env st)
      ((isExempt_decides (p := Pair.ofEnv env) ht).2 hx)
      (fin := fun
        | .refused => (-1, { st with env := some env })
        | .granted fd => (1, ⟨some env, some (st.plugin.getD { Pair.ofEnv env with socket := fd })⟩)) ?_ ?_ ?_
    · rw [hug', if_neg (by simp)] at key
      exact key
    · intro m hm fd
      unfold afterOpen
      rw [pure_bind, catch_pure, pure_bind]
      dsimp only
      rw [hS.occupied]
      cases st.plugin with
      | none => exact sim_over (v := .granted (some fd))
      | some q =>
        show Sim S _ m (Socket.close fd >>= _) _
        unfold Socket.close
        rw [bind_assoc]
        refine sim_call (x := .spare fd) rfl fun k _ _ => ?_
        rw [pure_bind]
        exact sim_over (v := .granted none)
    · intro m hm e
      unfold afterOpen
      rw [pure_bind, hS.reports]
      refine sim_refuse (C := fun m => M.catchUnwind (m >>= fun _ => _) >>= fun _ => _)
        (around_comp (around_bind _) (around_comp around_catch (around_bind _))) ?_ ?_ e.display
      · intro m hm b
        rw [pure_bind, catch_pure, pure_bind]
        exact sim_over (v := .refused)
      · intro m hm
        rw [panic_bind, catch_panic, pure_bind]
        exact sim_over (v := .refused)
    · intro m hm
      unfold afterOpen
      rw [panic_bind, catch_panic, pure_bind]
      exact sim_over (v := .refused)
  | @close st hp =>
    refine exact_over ?_ s
    show (Core.close st >>= _) = _
    unfold Core.close
    cases hpl : st.plugin with
    | none => rfl
    | some p =>
      have := hp p hpl
      dsimp only
      unfold Pair.close
      rw [this]
      rfl
  | @closePaired st p fd hp hs =>
    refine exact_of (fun n => ?_) s
    show Sim S _ n (Core.close st >>= _) _
    unfold Core.close
    rw [hp]
    dsimp only
    unfold Pair.close
    rw [hs]
    dsimp only
    unfold Socket.close
    simp only [bind_assoc, pure_bind]
    refine sim_call (x := .bye fd) rfl fun k _ _ => ?_
    refine sim_call (x := .byebye fd) rfl fun k _ _ => ?_
    exact sim_over (v := .granted none)
  | @versionNone st he =>
    refine exact_over ?_ s
    show (Core.showVersion st >>= _) = _
    unfold Core.showVersion
    rw [he]
    rfl
  | @version st env he =>
    refine exact_of (fun n => ?_) s
    show Sim S _ n (Core.showVersion st >>= _) _
    unfold Core.showVersion
    rw [he, ofOption_some_bind]
    refine sim_says (pf := PrintFacility.stdout env.hasPrintf) (N := n)
      (C := fun m => (M.catchUnwind (m >>= fun _ => _) >>= fun _ => _) >>= fun _ => _)
      (around_comp (around_bind _) (around_comp (around_bind _) (around_comp around_catch (around_bind _))))
      ?_ ?_ _ n (Nat.le_refl _)
    · intro m hm b
      rw [pure_bind, catch_pure, pure_bind, pure_bind]
      exact sim_over (v := .granted none)
    · intro m hm
      rw [panic_bind, catch_panic, pure_bind, pure_bind]
      exact sim_over (v := .refused)
  | @logNone st f buf hn =>
    refine exact_over ?_ s
    show (Core.log rt f buf st >>= _) = _
    unfold Core.log
    cases he : st.env with
    | none => rfl
    | some env =>
      cases hp : st.plugin with
      | none => rfl
      | some p => rw [he, hp] at hn; simp at hn
  | @resizeNone st l c hn =>
    refine exact_over ?_ s
    show (Core.changeWinsize l c st >>= _) = _
    unfold Core.changeWinsize
    cases he : st.env with
    | none => rfl
    | some env =>
      cases hp : st.plugin with
      | none => rfl
      | some p => rw [he, hp] at hn; simp at hn
  | @logUnwanted st f buf env p he hp hf =>
    refine exact_over ?_ s
    show (Core.log rt f buf st >>= _) = _
    rw [log_made he hp]
    by_cases hw : wanted env.commandInfo f = true
    · rw [if_pos hw]
      rcases hf with rfl | hf
      · rfl
      · rw [hf] at hw; cases hw
    · rw [if_neg hw]; rfl
  | @stdinTrips st buf env p he hp hi hd ht =>
    refine exact_over ?_ s
    show (Core.log rt .stdin buf st >>= _) = _
    rw [log_made he hp, if_pos (show wanted env.commandInfo .stdin = true from hi)]
    unfold Core.handler Pair.logStdin
    rw [isExempt_trips hd ht]
    rfl
  | @stdinExempt st buf env p he hp hi ht hx =>
    refine exact_over ?_ s
    show (Core.log rt .stdin buf st >>= _) = _
    rw [log_made he hp, if_pos (show wanted env.commandInfo .stdin = true from hi)]
    unfold Core.handler Pair.logStdin
    rw [(isExempt_decides ht).1 hx]
    rfl
  | @stdin st buf env p he hp hi ht hx =>
    refine exact_of (fun n => ?_) s
    show Sim S _ n (Core.log rt .stdin buf st >>= _) _
    rw [log_made he hp, if_pos (show wanted env.commandInfo .stdin = true from hi)]
    unfold Core.handler Pair.logStdin
    rw [(isExempt_decides ht).2 hx, ofOption_some_bind, if_neg (by simp), pure_bind]
    refine sim_refuse (C := fun m => (M.catchUnwind (m >>= fun _ => _) >>= fun _ => _) >>= fun _ => _)
      (around_comp (around_bind _) (around_comp (around_bind _) (around_comp around_catch (around_bind _))))
      ?_ ?_ (ErrorKind.display .stdinRedirected)
    · intro m hm b
      rw [pure_bind, catch_pure, pure_bind, pure_bind]
      exact sim_over (v := .refused)
    · intro m hm
      rw [panic_bind, catch_panic, pure_bind, pure_bind]
      exact sim_over (v := .refused)
  | @output st f buf env p he hp hf hw hr =>
    refine exact_of (fun n => ?_) s
    show Sim S _ n (Core.log rt f buf st >>= _) _
    rw [log_made he hp, if_pos hw]
    have : Core.handler rt p buf f = p.logOutput buf := by
      rcases hf with rfl | rfl | rfl <;> rfl
    rw [this]
    exact sim_logOutput hr
  | @resize st l c env p he hp hr =>
    refine exact_of (fun n => ?_) s
    show Sim S _ n (Core.changeWinsize l c st >>= _) _
    unfold Core.changeWinsize
    rw [he, hp, decimal_fun]
    exact sim_logOutput hr

/-- A session about which nothing is known but whether error messages can be printed. -/
def bareSession (reports : Bool) : Session :=
  ⟨none, false, reports, [], fun _ => [], [], fun _ => [], [], none, 0, 0, 0, none, 0, false⟩

/-- C63: the protocol covers every callback in every state. -/
theorem C63_total (rt : Rt) (c : Core.Call) (st : State) :
    ∃ S x fin, Protocol rt S c st x fin := by
  classical
  cases c with
  | «open» a =>
    cases hn : IoEnv.new rt a with
    | none => exact ⟨bareSession true, _, _, .openCrash ((C64_crash rt a).1 hn)⟩
    | some r =>
      cases r with
      | error e => exact ⟨bareSession true, _, _, .openBad ((C64_complaint rt a _).1 ⟨e, hn, rfl⟩)⟩
      | ok env0 =>
        obtain ⟨env, he⟩ : ∃ env, env = st.env.getD env0 := ⟨_, rfl⟩
        by_cases hc : env.commandInfo.command = []
        · exact ⟨bareSession true, _, _, .openBare hn he hc⟩
        by_cases ht : rt.debug = true ∧ Trips env (optionsOf env)
        · exact ⟨bareSession true, _, _, .openTrips hn he hc ht.1 ht.2⟩
        by_cases hx : SessionExempt env
        · exact ⟨bareSession true, _, _, .openExempt hn he hc ht hx⟩
        by_cases hb : env.userInfo.uid ≠ env.commandInfo.runasEuid ∧ env.settings.runasGroup ≠ none
        · exact ⟨bareSession true, _, _, .openBoth hn he hc ht hx hb.1 hb.2⟩
        exact ⟨_, _, _, .openAsk hn he hc ht hx hb (sessionOf_sessionFor rt env a.hasPrintf st.plugin.isSome)⟩
  | close =>
    by_cases h : ∀ p, st.plugin = some p → p.socket = none
    · exact ⟨bareSession true, _, _, .close h⟩
    · push Not at h
      obtain ⟨p, hp, hs⟩ := h
      obtain ⟨fd, hs⟩ := Option.ne_none_iff_exists'.1 hs
      exact ⟨bareSession true, _, _, .closePaired hp hs⟩
  | showVersion =>
    cases he : st.env with
    | none => exact ⟨bareSession true, _, _, .versionNone he⟩
    | some env => exact ⟨bareSession true, _, _, .version he⟩
  | log f buf =>
    cases he : st.env with
    | none => exact ⟨bareSession true, _, _, .logNone (.inl he)⟩
    | some env =>
      cases hp : st.plugin with
      | none => exact ⟨bareSession true, _, _, .logNone (.inr hp)⟩
      | some p =>
        by_cases hw : f = .ttyin ∨ wanted env.commandInfo f = false
        · exact ⟨bareSession true, _, _, .logUnwanted he hp hw⟩
        push Not at hw
        obtain ⟨hf, hw⟩ := hw
        have hw : wanted env.commandInfo f = true := by simpa using hw
        by_cases hi : f = .stdin
        · subst hi
          by_cases ht : rt.debug = true ∧ Trips p.env p.options
          · exact ⟨bareSession true, _, _, .stdinTrips he hp hw ht.1 ht.2⟩
          by_cases hx : Exempt p.env p.options
          · exact ⟨bareSession true, _, _, .stdinExempt he hp hw ht hx⟩
          · exact ⟨bareSession true, _, _, .stdin he hp hw ht hx⟩
        · refine ⟨bareSession env.hasPrintf, _, _, .output he hp ?_ hw rfl⟩
          cases f <;> simp_all
  | changeWinsize l c =>
    cases he : st.env with
    | none => exact ⟨bareSession true, _, _, .resizeNone (.inl he)⟩
    | some env =>
      cases hp : st.plugin with
      | none => exact ⟨bareSession true, _, _, .resizeNone (.inr hp)⟩
      | some p => exact ⟨bareSession env.hasPrintf, _, _, .resize he hp rfl⟩

/-- A whole history of callbacks that follows the protocol: each callback runs the machine from where the
one before left the state and the system, until there are no more callbacks or the process is killed. -/
inductive Follows (rt : Rt) : List Core.Call → State → Sched → Out (List Int × State) × Hist × Sched → Prop
  | nil {st s} : Follows rt [] st s (.ok ([], st), [], s)
  | cut {c cs st s S x fin h s'} : Protocol rt S c st x fin →
      runMachine S.move x s = (.killed, h, s') → Follows rt (c :: cs) st s (.killed, h, s')
  | cons {c cs st s S x fin v h s' r} : Protocol rt S c st x fin →
      runMachine S.move x s = (.ok v, h, s') →
      Follows rt cs (fin v).2 s' r →
      Follows rt (c :: cs) st s
        (withResult (fun q => ((fin v).1 :: q.1, q.2)) (r.1, h ++ r.2.1, r.2.2))

/-- The machine never panics. -/
theorem runMachine_ne_panic {σ ρ : Type} (move : σ → Move σ ρ) : ∀ (s : Sched) (x : σ), (runMachine move x s).1 ≠ .panic
  | [], x => by
    unfold runMachine
    cases move x <;> simp
  | a :: s, x => by
    unfold runMachine
    cases move x with
    | done r => simp
    | call c k => exact runMachine_ne_panic move s _

theorem run_ok {c : Core.Call} {cs : List Core.Call} {st : State} {s s' : Sched} {q : Int × State} {h : Hist}
    (he : Core.step rt c st s = (.ok q, h, s')) :
    Core.run rt (c :: cs) st s = withResult (fun p => (q.1 :: p.1, p.2))
      ((Core.run rt cs q.2 s').1, h ++ (Core.run rt cs q.2 s').2.1, (Core.run rt cs q.2 s').2.2) := by
  rw [show Core.run rt (c :: cs) st = Core.step rt c st >>= fun r => Core.run rt cs r.2 >>= fun q =>
    pure (r.1 :: q.1, q.2) from rfl, M.bind_def, he]
  simp only [M.bind_def]
  rcases Core.run rt cs q.2 s' with ⟨p | _ | _, h', s''⟩
  · show (_, h ++ (h' ++ []), _) = _
    rw [List.append_nil]; rfl
  · rfl
  · rfl

theorem run_killed {c : Core.Call} {cs : List Core.Call} {st : State} {s s' : Sched} {h : Hist}
    (he : Core.step rt c st s = (.killed, h, s')) : Core.run rt (c :: cs) st s = (.killed, h, s') := by
  rw [show Core.run rt (c :: cs) st = Core.step rt c st >>= fun r => Core.run rt cs r.2 >>= fun q =>
    pure (r.1 :: q.1, q.2) from rfl, M.bind_def, he]

/-- C63: every history of callbacks, under every schedule, follows the protocol and nothing else. -/
theorem C63_history (rt : Rt) (cs : List Core.Call) (st : State) (s : Sched)
    (r : Out (List Int × State) × Hist × Sched) :
    Follows rt cs st s r ↔ Core.run rt cs st s = r := by
  constructor
  · intro h
    induction h with
    | nil => rfl
    | @cut c cs st s S x fin h s' hp hm =>
      have he := C63_exact hp s
      rw [hm] at he
      exact run_killed he
    | @cons c cs st s S x fin v h s' r hp hm _ ih =>
      have he := C63_exact hp s
      rw [hm] at he
      rw [run_ok he, ih]
  · intro h
    subst h
    induction cs generalizing st s with
    | nil => exact .nil
    | cons c cs ih =>
      obtain ⟨S, x, fin, hp⟩ := C63_total rt c st
      have he := C63_exact hp s
      rcases hm : runMachine S.move x s with ⟨v | _ | _, h, s'⟩
      · rw [hm] at he
        rw [run_ok he]
        exact .cons hp hm (ih _ _)
      · exact absurd (by rw [hm]) (runMachine_ne_panic S.move s x)
      · rw [hm] at he
        rw [run_killed he]
        exact .cut hp hm

/-- C63: no callback ever panics out of the plugin, whatever the system answers. -/
theorem C63_never_panics (rt : Rt) (c : Core.Call) (st : State) (s : Sched) :
    (Core.step rt c st s).1 ≠ .panic := by
  obtain ⟨S, x, fin, hp⟩ := C63_total rt c st
  rw [C63_exact hp s]
  have := runMachine_ne_panic S.move s x
  rcases hm : runMachine S.move x s with ⟨v | _ | _, h, s'⟩
  · exact fun h => nomatch h
  · rw [hm] at this; exact absurd rfl this
  · exact fun h => nomatch h

/-- The environment of the sample session. -/
def argsEnv : IoEnv := ((IoEnv.new sampleRt sampleArgs).bind Except.toOption).getD sampleEnv

theorem argsEnv_new : IoEnv.new sampleRt sampleArgs = some (.ok argsEnv) := by
  have h : ((IoEnv.new sampleRt sampleArgs).bind Except.toOption).isSome = true := by decide +kernel
  unfold argsEnv
  rcases hn : IoEnv.new sampleRt sampleArgs with _ | (_ | _) <;> rw [hn] at h
  · exact absurd h (by simp)
  · exact absurd h (by simp [Except.toOption])
  · rfl

/-- The protocol asks the pair about the sample session; a pair who answers `y` has it granted, one who
answers `n` has it refused.  Afterwards the output goes to the pair. -/
example : ∃ S fin, Protocol sampleRt S (.open sampleArgs) ⟨none, none⟩ .userFile fin ∧
    (runMachine S.move .userFile (List.replicate 100 (coop 121))).1 = .ok (.granted (some 8)) ∧
    (runMachine S.move .userFile (List.replicate 100 (coop 110))).1 = .ok .refused ∧
    Protocol sampleRt S (.log .ttyout (b! "hi")) (fin (.granted (some 8))).2 (.guard 8 (.mirror (b! "hi")))
      (fun v => (if v = .refused then 0 else 1, (fin (.granted (some 8))).2)) := by
  refine ⟨sessionFor sampleRt argsEnv true false, _, .openAsk (env := argsEnv) argsEnv_new rfl (by decide +kernel)
    (fun h => nomatch h.1) ?_ (by decide +kernel) (sessionOf_sessionFor _ _ _ _), by decide +kernel,
    by decide +kernel, ?_⟩
  · intro h
    have := (C04_rule false (Pair.ofEnv argsEnv) false (by decide +kernel)).2 h
    cases this
  · exact .output (p := { Pair.ofEnv argsEnv with socket := some 8 }) rfl rfl (.inl rfl) (by decide +kernel)
      (by decide +kernel)

end SudoPair
