import Verif.Lemmas.Runs
/-
The possible runs of the handshake code, phase by phase.  These relations are only used in proofs
(statements of properties do not mention them).
-/
namespace SudoPair
open Socket

/-- Runs of `enforce_ownership`. -/
inductive Vet (rt : Rt) (path : Bytes) : Out Bool → Hist → Prop
  | none : Vet rt path (.ok false) []
  | killed : Vet rt path .killed []
  | noStat {parent} : Path.parent path = some parent → Vet rt path (.ok false) [⟨.stat parent, none⟩]
  | bad {parent st} : Path.parent path = some parent → Vet rt path (.ok false) [⟨.stat parent, some st⟩]
  | good {parent} {st : Stat} : Path.parent path = some parent → st.mode &&& S_IFDIR ≠ 0 →
      st.uid = rt.euid → st.mode &&& (S_IWGRP ||| S_IWOTH) = 0 →
      Vet rt path (.ok true) [⟨.stat parent, some st⟩]

theorem enforceOwnership_runs {rt path o h} (hr : Runs (enforceOwnership rt path) o h) :
    Vet rt path o h := by
  unfold enforceOwnership at hr
  split at hr
  · obtain ⟨rfl, rfl⟩ := hr.pure; exact .none
  · rename_i parent hp
    split at hr
    · obtain ⟨rfl, rfl⟩ := hr.pure; exact .none
    · inv Runs.sys_bind hr with ⟨rfl, rfl⟩ | ⟨r, h', hr, rfl⟩
      · exact .killed
      · rcases r with _ | st
        · obtain ⟨rfl, rfl⟩ := hr.pure; exact .noStat hp
        · simp only at hr
          split at hr
          · obtain ⟨rfl, rfl⟩ := hr.pure; exact .bad hp
          · split at hr
            · obtain ⟨rfl, rfl⟩ := hr.pure; exact .bad hp
            · split at hr
              · obtain ⟨rfl, rfl⟩ := hr.pure; exact .bad hp
              · obtain ⟨rfl, rfl⟩ := hr.pure
                rename_i h1 h2 h3
                exact .good hp h1 (Decidable.not_not.1 h2) (Decidable.not_not.1 h3)

/-- Runs of `unlink`. -/
inductive Unlink (path : Bytes) : Out Bool → Hist → Prop
  | killed : Unlink path .killed []
  | absent : Unlink path (.ok true) [⟨.metadata path, none⟩]
  | foreign : Unlink path (.ok false) [⟨.metadata path, some false⟩]
  | killed' : Unlink path .killed [⟨.metadata path, some true⟩]
  | removed (b : Bool) : Unlink path (.ok b) [⟨.metadata path, some true⟩, ⟨.removeFile path, b⟩]

theorem unlink_runs {path o h} (hr : Runs (unlink path) o h) : Unlink path o h := by
  unfold unlink at hr
  inv Runs.sys_bind hr with ⟨rfl, rfl⟩ | ⟨r, h', hr, rfl⟩
  · exact .killed
  · rcases r with _ | (_ | _)
    · obtain ⟨rfl, rfl⟩ := hr.pure; exact .absent
    · obtain ⟨rfl, rfl⟩ := hr.pure; exact .foreign
    · inv Runs.sys hr with ⟨rfl, rfl⟩ | ⟨r, rfl, rfl⟩
      · exact .killed'
      · exact .removed r

/-- Runs of the closure that prepares the bound socket, waits and accepts. -/
inductive Acc (rt : Rt) (path : Bytes) (uid gid mode fd : Nat) : Out (Option Conn) → Hist → Prop
  | nul : Acc rt path uid gid mode fd (.ok none) []
  | k0 : Acc rt path uid gid mode fd .killed []
  | chown : Acc rt path uid gid mode fd (.ok none) [⟨.chown path uid gid, false⟩]
  | k1 : Acc rt path uid gid mode fd .killed [⟨.chown path uid gid, true⟩]
  | chmod : Acc rt path uid gid mode fd (.ok none) [⟨.chown path uid gid, true⟩, ⟨.chmod path mode, false⟩]
  | fdset : rt.fdSetSize ≤ fd → Acc rt path uid gid mode fd .panic [⟨.chown path uid gid, true⟩, ⟨.chmod path mode, true⟩]
  | k2 : Acc rt path uid gid mode fd .killed [⟨.chown path uid gid, true⟩, ⟨.chmod path mode, true⟩]
  | selFail (b : Bool) : Acc rt path uid gid mode fd (.ok none)
      [⟨.chown path uid gid, true⟩, ⟨.chmod path mode, true⟩, ⟨.select fd, (-1, b)⟩]
  | selPanic (r : Int × Bool) : r ≠ (1, true) → r.1 ≠ -1 → Acc rt path uid gid mode fd .panic
      [⟨.chown path uid gid, true⟩, ⟨.chmod path mode, true⟩, ⟨.select fd, r⟩]
  | k3 : Acc rt path uid gid mode fd .killed
      [⟨.chown path uid gid, true⟩, ⟨.chmod path mode, true⟩, ⟨.select fd, (1, true)⟩]
  | done (c : Option Conn) : Acc rt path uid gid mode fd (.ok c)
      [⟨.chown path uid gid, true⟩, ⟨.chmod path mode, true⟩, ⟨.select fd, (1, true)⟩, ⟨.accept fd, c⟩]

theorem acceptOne_runs {rt path uid gid mode fd o h}
    (hr : Runs (acceptOne rt path uid gid mode fd) o h) : Acc rt path uid gid mode fd o h := by
  unfold acceptOne at hr
  split at hr
  · obtain ⟨rfl, rfl⟩ := hr.pure; exact .nul
  · inv Runs.sys_bind hr with ⟨rfl, rfl⟩ | ⟨r, h', hr, rfl⟩
    · exact .k0
    · rcases r with _ | _
      · obtain ⟨rfl, rfl⟩ := hr.pure; exact .chown
      · simp only [if_true] at hr
        inv Runs.sys_bind hr with ⟨rfl, rfl⟩ | ⟨r, h', hr, rfl⟩
        · exact .k1
        · rcases r with _ | _
          · obtain ⟨rfl, rfl⟩ := hr.pure; exact .chmod
          · simp only [if_true] at hr
            split at hr
            · obtain ⟨rfl, rfl⟩ := hr.panic; exact .fdset ‹_›
            · inv Runs.sys_bind hr with ⟨rfl, rfl⟩ | ⟨r, h', hr, rfl⟩
              · exact .k2
              · split at hr
                · inv Runs.sys hr with ⟨rfl, rfl⟩ | ⟨r, rfl, rfl⟩
                  · exact .k3
                  · exact .done r
                · obtain ⟨rfl, rfl⟩ := hr.panic; exact .selPanic _ (by simp) (by decide)
                · obtain ⟨rfl, rfl⟩ := hr.pure; exact .selFail _
                · obtain ⟨rfl, rfl⟩ := hr.panic
                  rename_i r h1 h2 h3
                  refine .selPanic _ h1 ?_
                  intro h4
                  exact h3 _ (Prod.ext h4 rfl)

/-- The result of `bind` followed by the closure. -/
inductive BindAcc (rt : Rt) (path : Bytes) (uid gid mode : Nat) : Out (Option Conn) → Hist → Prop
  | killed : BindAcc rt path uid gid mode .killed []
  | failed : BindAcc rt path uid gid mode (.ok none) [⟨.bind path, .failed⟩]
  | failLeft : BindAcc rt path uid gid mode (.ok none) [⟨.bind path, .failLeft⟩]
  | bound {fd o h} : Acc rt path uid gid mode fd o h →
      BindAcc rt path uid gid mode o (⟨.bind path, .bound fd⟩ :: h)

/-- Runs of `Socket::open`. -/
inductive SockOpen (rt : Rt) (path : Bytes) (uid gid mode : Nat) : Out (Option Conn) → Hist → Prop
  | vetErr {h} : Vet rt path (.ok false) h → SockOpen rt path uid gid mode (.ok none) h
  | vetKilled {h} : Vet rt path .killed h → SockOpen rt path uid gid mode .killed h
  | unlErr {h1 h2} : Vet rt path (.ok true) h1 → Unlink path (.ok false) h2 →
      SockOpen rt path uid gid mode (.ok none) (h1 ++ h2)
  | unlKilled {h1 h2} : Vet rt path (.ok true) h1 → Unlink path .killed h2 →
      SockOpen rt path uid gid mode .killed (h1 ++ h2)
  | umaskKilled {h1 h2} : Vet rt path (.ok true) h1 → Unlink path (.ok true) h2 →
      SockOpen rt path uid gid mode .killed (h1 ++ h2)
  | accKilled {h1 h2 old h3} : Vet rt path (.ok true) h1 → Unlink path (.ok true) h2 →
      BindAcc rt path uid gid mode .killed h3 →
      SockOpen rt path uid gid mode .killed (h1 ++ (h2 ++ ⟨.umask 0o777, old⟩ :: h3))
  | accPanic {h1 h2 old h3} : Vet rt path (.ok true) h1 → Unlink path (.ok true) h2 →
      BindAcc rt path uid gid mode .panic h3 →
      SockOpen rt path uid gid mode .panic (h1 ++ (h2 ++ ⟨.umask 0o777, old⟩ :: h3))
  | finKilled {h1 h2 old h3 c h4 o} : Vet rt path (.ok true) h1 → Unlink path (.ok true) h2 →
      BindAcc rt path uid gid mode (.ok c) h3 → Unlink path o h4 →
      SockOpen rt path uid gid mode .killed (h1 ++ (h2 ++ ⟨.umask 0o777, old⟩ :: (h3 ++ h4)))
  | done {h1 h2 h3 c h4} {old old' : Nat} {b : Bool} : Vet rt path (.ok true) h1 → Unlink path (.ok true) h2 →
      BindAcc rt path uid gid mode (.ok c) h3 → Unlink path (.ok b) h4 →
      SockOpen rt path uid gid mode (.ok c)
        (h1 ++ (h2 ++ ⟨.umask 0o777, old⟩ :: (h3 ++ (h4 ++ [⟨.umask old, old'⟩]))))

theorem vet_not_panic {rt path h} (hv : Vet rt path .panic h) : False := by cases hv
theorem unlink_not_panic {path h} (hv : Unlink path .panic h) : False := by cases hv

theorem open'_runs {rt path uid gid mode o h} (hr : Runs (open' rt path uid gid mode) o h) :
    SockOpen rt path uid gid mode o h := by
  unfold open' at hr
  inv Runs.bind hr with ⟨b, h1, h2, hv, hr, rfl⟩ | ⟨rfl, hv⟩ | ⟨rfl, hv⟩
  · have hv := enforceOwnership_runs hv
    cases b with
    | false =>
      obtain ⟨rfl, rfl⟩ := hr.pure
      rw [List.append_nil]; exact .vetErr hv
    | true =>
      simp only [if_true] at hr
      inv Runs.bind hr with ⟨b, h3, h4, hu, hr, rfl⟩ | ⟨rfl, hu⟩ | ⟨rfl, hu⟩
      · have hu := unlink_runs hu
        cases b with
        | false =>
          obtain ⟨rfl, rfl⟩ := hr.pure
          rw [List.append_nil]; exact .unlErr hv hu
        | true =>
          simp only [if_true] at hr
          inv Runs.sys_bind hr with ⟨rfl, rfl⟩ | ⟨old, h5, hr, rfl⟩
          · rw [List.append_nil]; exact .umaskKilled hv hu
          · inv Runs.sys_bind hr with ⟨rfl, rfl⟩ | ⟨br, h6, hr, rfl⟩
            · exact .accKilled hv hu .killed
            · have key : ∀ {c h6}, Runs (do
                    let _ ← unlink path
                    let _ ← M.sys (.umask old)
                    pure c : M (Option Conn)) o h6 → ∀ h3', BindAcc rt path uid gid mode (.ok c) h3' →
                  SockOpen rt path uid gid mode o (h1 ++ (h3 ++ ⟨.umask 0o777, old⟩ :: (h3' ++ h6))) := by
                intro c h6 hr h3' hb
                inv Runs.bind hr with ⟨b, h7, h8, hu2, hr, rfl⟩ | ⟨rfl, hu2⟩ | ⟨rfl, hu2⟩
                · have hu2 := unlink_runs hu2
                  inv Runs.sys_bind hr with ⟨rfl, rfl⟩ | ⟨old', h9, hr, rfl⟩
                  · rw [List.append_nil]; exact .finKilled hv hu hb hu2
                  · obtain ⟨rfl, rfl⟩ := hr.pure
                    exact .done hv hu hb hu2
                · exact (unlink_not_panic (unlink_runs hu2)).elim
                · exact .finKilled hv hu hb (unlink_runs hu2)
              rcases br with fd | _ | _
              · inv Runs.bind hr with ⟨c, h7, h8, ha, hr, rfl⟩ | ⟨rfl, ha⟩ | ⟨rfl, ha⟩
                · have := key hr _ (.bound (acceptOne_runs ha))
                  simpa using this
                · exact .accPanic hv hu (.bound (acceptOne_runs ha))
                · exact .accKilled hv hu (.bound (acceptOne_runs ha))
              · exact key hr.pure_bind _ .failed
              · exact key hr.pure_bind _ .failLeft
      · exact (unlink_not_panic (unlink_runs hu)).elim
      · exact .unlKilled hv (unlink_runs hu)
  · exact (vet_not_panic (enforceOwnership_runs hv)).elim
  · exact .vetKilled (enforceOwnership_runs hv)

/-- What the session's configuration gives to `Socket::open`. -/
abbrev Connects (rt : Rt) (p : Pair) (o : Out (Option Conn)) (h : Hist) : Prop :=
  ∃ mode, p.socketMode = some mode ∧ Runs (open' rt p.socketPath p.socketUid p.socketGid mode) o h

/-- Runs of `SudoPair::open`. -/
inductive PairOpen (rt : Rt) (p : Pair) : Out (Except ErrorKind Pair) → Hist → Prop
  | undecided : p.isExempt rt.debug = none → PairOpen rt p .panic []
  | exempt : p.isExempt rt.debug = some true → PairOpen rt p (.ok (.ok p)) []
  | both : p.isExempt rt.debug = some false → p.toUserAndGroup = true →
      PairOpen rt p (.ok (.error .sudoToUserAndGroup)) []
  | localPanic {h} : p.isExempt rt.debug = some false → p.toUserAndGroup = false →
      Runs (p.localPairPrompt p.templateSpec) .panic h → PairOpen rt p .panic h
  | localKilled {h} : p.isExempt rt.debug = some false → p.toUserAndGroup = false →
      Runs (p.localPairPrompt p.templateSpec) .killed h → PairOpen rt p .killed h
  | noMode {h u} : p.isExempt rt.debug = some false → p.toUserAndGroup = false →
      Runs (p.localPairPrompt p.templateSpec) (.ok u) h → p.socketMode = none →
      PairOpen rt p .panic h
  | sockPanic {h1 u h2} : p.isExempt rt.debug = some false → p.toUserAndGroup = false →
      Runs (p.localPairPrompt p.templateSpec) (.ok u) h1 → Connects rt p .panic h2 →
      PairOpen rt p .panic (h1 ++ h2)
  | sockKilled {h1 u h2} : p.isExempt rt.debug = some false → p.toUserAndGroup = false →
      Runs (p.localPairPrompt p.templateSpec) (.ok u) h1 → Connects rt p .killed h2 →
      PairOpen rt p .killed (h1 ++ h2)
  | sockErr {h1 u h2} : p.isExempt rt.debug = some false → p.toUserAndGroup = false →
      Runs (p.localPairPrompt p.templateSpec) (.ok u) h1 → Connects rt p (.ok none) h2 →
      PairOpen rt p (.ok (.error .communicationError)) (h1 ++ h2)
  | approved {h1 u h2 conn h3} : p.isExempt rt.debug = some false → p.toUserAndGroup = false →
      Runs (p.localPairPrompt p.templateSpec) (.ok u) h1 → Connects rt p (.ok (some conn)) h2 →
      Runs (p.remotePairPrompt p.templateSpec conn.fd) (.ok (.ok ())) h3 →
      PairOpen rt p (.ok (.ok { p with socket := some conn.fd })) (h1 ++ (h2 ++ h3))
  | declined {h1 u h2 conn h3 e} {b : Bool} : p.isExempt rt.debug = some false → p.toUserAndGroup = false →
      Runs (p.localPairPrompt p.templateSpec) (.ok u) h1 → Connects rt p (.ok (some conn)) h2 →
      Runs (p.remotePairPrompt p.templateSpec conn.fd) (.ok (.error e)) h3 →
      PairOpen rt p (.ok (.error e)) (h1 ++ (h2 ++ (h3 ++ [⟨.shutdown conn.fd, b⟩])))
  | paniced {h1 u h2 conn h3} {b : Bool} : p.isExempt rt.debug = some false → p.toUserAndGroup = false →
      Runs (p.localPairPrompt p.templateSpec) (.ok u) h1 → Connects rt p (.ok (some conn)) h2 →
      Runs (p.remotePairPrompt p.templateSpec conn.fd) .panic h3 →
      PairOpen rt p .panic (h1 ++ (h2 ++ (h3 ++ [⟨.shutdown conn.fd, b⟩])))
  | killed {h1 u h2 conn h3 o} : p.isExempt rt.debug = some false → p.toUserAndGroup = false →
      Runs (p.localPairPrompt p.templateSpec) (.ok u) h1 → Connects rt p (.ok (some conn)) h2 →
      Runs (p.remotePairPrompt p.templateSpec conn.fd) o h3 →
      PairOpen rt p .killed (h1 ++ (h2 ++ h3))

theorem close_runs {fd o h} (hr : Runs (Socket.close fd) o h) :
    (o = .killed ∧ h = []) ∨ ∃ b : Bool, o = .ok () ∧ h = [⟨.shutdown fd, b⟩] := by
  unfold Socket.close at hr
  inv Runs.sys_bind hr with ⟨rfl, rfl⟩ | ⟨r, h', hr, rfl⟩
  · exact Or.inl ⟨rfl, rfl⟩
  · obtain ⟨rfl, rfl⟩ := hr.pure
    exact Or.inr ⟨r, rfl, rfl⟩

/-- The pair object `SudoPair::open` starts from. -/
def Pair.ofEnv (env : IoEnv) : Pair := { env, options := .ofMap env.pluginOptions, socket := none }

theorem pairOpen_runs {rt env o h} (hr : Runs (Pair.open rt env) o h) :
    PairOpen rt (Pair.ofEnv env) o h := by
  unfold Pair.open at hr
  change Runs (M.ofOption ((Pair.ofEnv env).isExempt rt.debug) >>= _) o h at hr
  generalize hp : Pair.ofEnv env = p at hr ⊢
  have hp' : ({ env, options := .ofMap env.pluginOptions, socket := none } : Pair) = p := hp
  simp only [hp'] at hr
  inv Runs.ofOption_bind hr with ⟨hx, rfl, rfl⟩ | ⟨b, hx, hr⟩
  · exact .undecided hx
  cases b with
  | true => obtain ⟨rfl, rfl⟩ := hr.pure; exact .exempt hx
  | false =>
    simp only [Bool.false_eq_true, if_false] at hr
    by_cases hb : p.toUserAndGroup = true
    · rw [if_pos hb] at hr
      obtain ⟨rfl, rfl⟩ := hr.pure; exact .both hx hb
    · rw [if_neg hb] at hr
      have hb : p.toUserAndGroup = false := by simpa using hb
      inv Runs.bind hr with ⟨u, h1, h2, hl, hr, rfl⟩ | ⟨rfl, hl⟩ | ⟨rfl, hl⟩
      · inv Runs.bind hr with ⟨c, h3, h4, hc, hr, rfl⟩ | ⟨rfl, hc⟩ | ⟨rfl, hc⟩
        · unfold Pair.remotePairConnect at hc
          inv Runs.ofOption_bind hc with ⟨_, hc, _⟩ | ⟨mode, hm, hc⟩
          · simp at hc
          · inv Runs.bind hc with ⟨conn, h5, h6, hs, hc, rfl⟩ | ⟨hc, _⟩ | ⟨hc, _⟩
            · rcases conn with _ | conn
              · obtain ⟨h7, rfl⟩ := hc.pure
                simp only [Out.ok.injEq] at h7; subst h7
                obtain ⟨rfl, rfl⟩ := hr.pure
                rw [List.append_nil, List.append_nil]
                exact .sockErr hx hb hl ⟨mode, hm, hs⟩
              · obtain ⟨h7, rfl⟩ := hc.pure
                simp only [Out.ok.injEq] at h7; subst h7
                simp only at hr
                rw [List.append_nil]
                inv Runs.onUnwind hr with ⟨hr, hnp⟩ | ⟨h7, h8, o2, hr, hcl, rfl, ho⟩
                · inv Runs.bind hr with ⟨x, h7, h8, hpr, hr, rfl⟩ | ⟨rfl, _⟩ | ⟨rfl, hpr⟩
                  · rcases x with e | ⟨⟩
                    · inv Runs.bind hr with ⟨x, h9, h10, hcl, hr, rfl⟩ | ⟨rfl, _⟩ | ⟨rfl, hcl⟩
                      · rcases close_runs hcl with ⟨hk, _⟩ | ⟨b, _, rfl⟩
                        · simp at hk
                        · obtain ⟨rfl, rfl⟩ := hr.pure
                          rw [List.append_nil]
                          exact .declined hx hb hl ⟨mode, hm, hs⟩ hpr
                      · exact absurd rfl hnp
                      · rcases close_runs hcl with ⟨_, rfl⟩ | ⟨b, hk, _⟩
                        · rw [List.append_nil]; exact .killed hx hb hl ⟨mode, hm, hs⟩ hpr
                        · simp at hk
                    · obtain ⟨rfl, rfl⟩ := hr.pure
                      rw [List.append_nil]
                      subst hp
                      exact .approved hx hb hl ⟨mode, hm, hs⟩ hpr
                  · exact absurd rfl hnp
                  · exact .killed hx hb hl ⟨mode, hm, hs⟩ hpr
                · have hpr : Runs (p.remotePairPrompt p.templateSpec conn.fd) .panic h7 := by
                    inv Runs.bind hr with ⟨x, h9, h10, hpr, hr, rfl⟩ | ⟨_, hpr⟩ | ⟨hk, _⟩
                    · rcases x with e | ⟨⟩
                      · inv Runs.bind hr with ⟨x, h11, h12, hcl, hr, rfl⟩ | ⟨_, hcl⟩ | ⟨hk, _⟩
                        · exact absurd hr.pure.1 (by simp)
                        · rcases close_runs hcl with ⟨hk, _⟩ | ⟨b, hk, _⟩ <;> simp at hk
                        · simp at hk
                      · exact absurd hr.pure.1 (by simp)
                    · exact hpr
                    · simp at hk
                  rcases close_runs hcl with ⟨rfl, rfl⟩ | ⟨b, rfl, rfl⟩
                  · rcases ho with ⟨_, rfl⟩ | ⟨hk, _⟩
                    · rw [List.append_nil]; exact .killed hx hb hl ⟨mode, hm, hs⟩ hpr
                    · exact absurd rfl hk
                  · rcases ho with ⟨hk, _⟩ | ⟨_, rfl⟩
                    · simp at hk
                    · exact .paniced hx hb hl ⟨mode, hm, hs⟩ hpr
            · simp at hc
            · simp at hc
        · unfold Pair.remotePairConnect at hc
          inv Runs.ofOption_bind hc with ⟨hm, _, rfl⟩ | ⟨mode, hm, hc⟩
          · rw [List.append_nil]; exact .noMode hx hb hl hm
          · inv Runs.bind hc with ⟨conn, h5, h6, hs, hc, rfl⟩ | ⟨_, hs⟩ | ⟨hc, _⟩
            · rcases conn with _ | conn <;> exact absurd hc.pure.1 (by simp)
            · exact .sockPanic hx hb hl ⟨mode, hm, hs⟩
            · simp at hc
        · unfold Pair.remotePairConnect at hc
          inv Runs.ofOption_bind hc with ⟨_, hc, _⟩ | ⟨mode, hm, hc⟩
          · simp at hc
          · inv Runs.bind hc with ⟨conn, h5, h6, hs, hc, rfl⟩ | ⟨hc, _⟩ | ⟨_, hs⟩
            · rcases conn with _ | conn <;> exact absurd hc.pure.1 (by simp)
            · simp at hc
            · exact .sockKilled hx hb hl ⟨mode, hm, hs⟩
      · exact .localPanic hx hb hl
      · exact .localKilled hx hb hl

end SudoPair
