import Verif.Spec.Loss
import Verif.Props.Follow
/-
C85: when the loss of the pair is noticed.
-/
namespace SudoPair
open Spec Core

theorem lost_delivered {fd : Nat} {h : Hist} (hl : Lost fd h) : delivered fd h = [] := by
  refine delivered_of_sent (fun e he => ?_)
  have := hl e he
  rcases e with ⟨c, r⟩
  cases c <;> first | rfl | skip
  rename_i g buf
  cases r <;> first | rfl | skip
  rename_i n
  by_cases hg : g = fd
  · rcases this hg with h | h | h
    · simp at h
    · simp at h
    · obtain rfl : n = 0 := by simpa using h
      simp [sent]
  · simp [sent, hg]

/-- A callback that has nothing for the pair returns 1 and does nothing. -/
theorem step_quietly {rt : Rt} {env : IoEnv} {p : Pair} {c : Call} (hc : c.isLog) (hq : Quietly env.commandInfo c) :
    Core.step rt c ⟨some env, some p⟩ = pure (1, ⟨some env, some p⟩) := by
  obtain ⟨h1, h2⟩ := hq
  rcases c with _ | _ | _ | ⟨f, buf⟩ | ⟨l, k⟩ <;> simp [Call.isLog] at hc
  · have key : Core.log rt f buf ⟨some env, some p⟩ = pure 1 := by
      unfold Core.log
      simp only [M.ofOption_some, M.pure_bind']
      cases hh : Core.hint env.commandInfo f with
      | false => rfl
      | true =>
        have hw : ∀ buf : Bytes, buf = [] → p.logOutput buf = pure (.ok ()) := by
          rintro _ rfl
          unfold Pair.logOutput
          cases p.socket with
          | none => rfl
          | some fd => simp only [Socket.writeAll, writeAll_nil]; rfl
        have hd : Core.handler rt p buf f = pure (.ok ()) := by
          cases f with
          | ttyin => rfl
          | stdin => rw [show env.commandInfo.iologStdin = true from hh] at h2; simp at h2
          | ttyout =>
            rw [payload, if_pos (show env.commandInfo.iologTtyout = true from hh)] at h1
            exact hw buf h1
          | stdout =>
            rw [payload, if_pos (show env.commandInfo.iologStdout = true from hh)] at h1
            exact hw buf h1
          | stderr =>
            rw [payload, if_pos (show env.commandInfo.iologStderr = true from hh)] at h1
            exact hw buf h1
        rw [hd]
        rfl
    show (do let r ← Core.log rt f buf ⟨some env, some p⟩; pure (r, _)) = _
    rw [key]
    rfl
  · simp [payload, Spec.resize] at h1

/-- On a lost connection a callback returns 1 only if it has nothing for the pair. -/
theorem step_lost {rt : Rt} {env : IoEnv} {p : Pair} {fd : Nat} {c : Call} {st h} (hs : p.socket = some fd)
    (hx : p.isExempt rt.debug = some false) (hc : c.isLog)
    (hr : Runs (Core.step rt c ⟨some env, some p⟩) (.ok (1, st)) h) (hl : Lost fd h) : Quietly env.commandInfo c := by
  refine ⟨?_, ?_⟩
  · rw [← (step_yes hs hc hr).2, lost_delivered hl]
  · rintro buf rfl
    rcases hi : env.commandInfo.iologStdin with _ | _
    · rfl
    · rcases (step_stdin hr).2.2.1 hi hx with h | h <;> simp at h

/-- No callback is in progress. -/
def Between (t : List Act) : Prop := t = [] ∨ ∃ w c, t = w ++ [.pass c]

theorem running_between {rt : Rt} {st st' : State} {t : List Act} (hr : Running rt st t (some st')) : Between t := by
  generalize hs : some st' = s at hr
  cases hr with
  | nil => exact Or.inl rfl
  | @pass t st1 c st2 h hrun hc hstep => exact Or.inr ⟨t ++ h.map .sys, c, by simp⟩
  | stop => cases hs

theorem between_sys {t : List Act} {k : Hist} (h : Between (t ++ k.map .sys)) : k = [] := by
  rcases h with h | ⟨w, c, h⟩
  · simpa using (List.append_eq_nil_iff.1 h).2
  · exact map_sys_last h

/-- The last callback is determined. -/
theorem last_block {t t' : List Act} {h h' : Hist} {x x' : Act} (hb : Between t) (hb' : Between t')
    (he : t ++ (h.map .sys ++ [x]) = t' ++ (h'.map .sys ++ [x'])) : t = t' ∧ h = h' ∧ x = x' := by
  rw [← List.append_assoc, ← List.append_assoc] at he
  obtain ⟨he2, hx⟩ := List.append_inj' he rfl
  obtain rfl : x = x' := by simpa using hx
  rcases List.append_eq_append_iff.1 he2 with ⟨a, rfl, ha⟩ | ⟨a, rfl, ha⟩
  · obtain ⟨k, l, rfl, rfl, h3⟩ := List.map_eq_append_iff.1 ha
    obtain rfl := between_sys hb'
    have : l = h' := by
      rw [← sysOf_map l, ← sysOf_map h', h3]
    exact ⟨by simp, by simp [this], rfl⟩
  · obtain ⟨k, l, rfl, rfl, h3⟩ := List.map_eq_append_iff.1 ha
    obtain rfl := between_sys hb
    have : l = h := by
      rw [← sysOf_map l, ← sysOf_map h, h3]
    exact ⟨by simp, by simp [this], rfl⟩

theorem running_lost {rt : Rt} {env : IoEnv} {p : Pair} {fd : Nat} {t r} (hs : p.socket = some fd)
    (hx : p.isExempt rt.debug = some false) (hr : Running rt ⟨some env, some p⟩ t r) :
    ∀ u w, t = u ++ w → Between u → Lost fd (sysOf w) → ∀ c ∈ passed w, Quietly env.commandInfo c := by
  have part : ∀ {t u w : List Act} {h : Hist} {x : Act}, t ++ (h.map .sys ++ [x]) = u ++ w → Between u → Between t →
      (∃ y, t = u ++ y ∧ w = y ++ (h.map .sys ++ [x])) ∨ w = [] := by
    intro t u w h x he hu ht
    rcases List.append_eq_append_iff.1 he with ⟨y, rfl, hy⟩ | ⟨y, rfl, rfl⟩
    · rcases cut_last hy with ⟨k, l, rfl, rfl, rfl⟩ | ⟨rfl, rfl⟩
      · obtain rfl := between_sys hu
        exact Or.inl ⟨[], by simp, by simp⟩
      · exact Or.inr rfl
    · exact Or.inl ⟨y, rfl, rfl⟩
  induction hr with
  | nil =>
    intro u w h _ _ c hc
    obtain ⟨rfl, rfl⟩ := List.append_eq_nil_iff.1 h.symm
    simp [passed] at hc
  | @pass t st' c st'' h hrun hc hstep ih =>
    intro u w he hu hl d hd
    obtain ⟨rfl, -⟩ := (running_inv hs hrun).1 _ rfl
    rcases part he hu (running_between hrun) with ⟨y, h1, rfl⟩ | rfl
    · rw [sysOf_append, sysOf_append, sysOf_map] at hl
      rw [passed_append, passed_append, passed_map, List.nil_append] at hd
      rcases List.mem_append.1 hd with hd | hd
      · exact ih u y h1 hu (fun e he => hl e (List.mem_append_left _ he)) d hd
      · obtain rfl : d = c := by simpa [passed] using hd
        exact step_lost hs hx hc hstep (fun e he => hl e (by simp [he]))
    · simp [passed] at hd
  | @stop t st' c o h hrun hc hstep hno ih =>
    intro u w he hu hl d hd
    rcases part he hu (running_between hrun) with ⟨y, h1, rfl⟩ | rfl
    · rw [sysOf_append] at hl
      rw [passed_append, passed_append, passed_map, List.nil_append] at hd
      rcases List.mem_append.1 hd with hd | hd
      · exact ih u y h1 hu (fun e he => hl e (List.mem_append_left _ he)) d hd
      · simp [passed] at hd
    · simp [passed] at hd

theorem approved_state {rt : Rt} {env : IoEnv} {p : Pair} {h : Hist} (hne : ¬ SessionExempt env)
    (hpo : PairOpen rt (Pair.ofEnv env) (.ok (.ok p)) h) : (Pair.ofEnv env).isExempt rt.debug = some false := by
  generalize ho : (Out.ok (Except.ok p) : Out (Except ErrorKind Pair)) = o at hpo
  cases hpo with
  | exempt h => exact absurd h (not_exempt_of hne)
  | approved h => exact h
  | _ => simp at ho

/-- C85: nothing unseen.  Suppose that from some instant of a session that is not exempt the connection to the pair is
lost.  Then all that sudo passes on at any time, before or after, of the output of logged facilities and of resizes, the
pair had received before it was lost. -/
theorem C85_nothing_unseen {rt : Rt} {a : OpenArgs} {env : IoEnv} {t1 t2 : List Act}
    (hs : SudoSession rt a (t1 ++ .start :: t2)) (hnew : IoEnv.new rt a = some (.ok env))
    (hcmd : env.commandInfo.command ≠ []) (hne : ¬ SessionExempt env) :
    ∃ fd, ApprovedSession env fd (sysOf t1) ∧ ∀ u w, t2 = u ++ w → Lost fd (sysOf w) →
      (passed t2).flatMap (payload env.commandInfo) <+: delivered fd (sysOf u) := by
  obtain ⟨fd, happ, hall⟩ := (C59_pair_sees_first rt a env _ hs hnew hcmd hne).2 t1 t2 rfl
  refine ⟨fd, happ, fun u w he hl => ?_⟩
  have := hall t2 List.prefix_rfl
  rwa [he, sysOf_append, delivered_append, lost_delivered hl, List.append_nil, ← he] at this

/-- C85: the loss is noticed with the first callback that has something for the pair: of those made after the connection
was lost, sudo goes on only after callbacks that have nothing for the pair and are not input to be refused. -/
theorem C85_noticed {rt : Rt} {a : OpenArgs} {env : IoEnv} {t1 t2 : List Act}
    (hs : SudoSession rt a (t1 ++ .start :: t2)) (hnew : IoEnv.new rt a = some (.ok env))
    (hcmd : env.commandInfo.command ≠ []) (hne : ¬ SessionExempt env) :
    ∃ fd, ApprovedSession env fd (sysOf t1) ∧ ∀ u w, t2 = u ++ w → Between u → Lost fd (sysOf w) →
      ∀ c ∈ passed w, Quietly env.commandInfo c := by
  obtain ⟨st, r, hr, hrun⟩ := start_inv hs
  obtain ⟨p, rfl, hpo⟩ := fresh_open_stored hr hnew hcmd
  have hx := approved_state hne hpo
  obtain ⟨fd, rfl, happ⟩ := approvedSession_of hne hpo
  exact ⟨fd, happ, running_lost (p := { Pair.ofEnv env with socket := some fd }) rfl hx hrun⟩

theorem running_quietly {rt : Rt} {env : IoEnv} {p : Pair} {st0 : State} (cs : List Call) : ∀ {t : List Act},
    Running rt st0 t (some ⟨some env, some p⟩) → (∀ c ∈ cs, c.isLog ∧ Quietly env.commandInfo c) →
      Running rt st0 (t ++ cs.map .pass) (some ⟨some env, some p⟩) := by
  induction cs with
  | nil => intro t hr _; simpa using hr
  | cons c cs ih =>
    intro t hr hc
    obtain ⟨h1, h2⟩ := hc c (List.mem_cons_self ..)
    have hstep : Runs (Core.step rt c ⟨some env, some p⟩) (.ok (1, ⟨some env, some p⟩)) [] := by
      rw [step_quietly h1 h2]
      exact runs_of (s := []) rfl
    have := ih (.pass hr h1 hstep) (fun c h => hc c (List.mem_cons_of_mem _ h))
    simpa using this

/-- Before the command is started, there are only interactions of the plugin. -/
theorem start_map {rt : Rt} {a : OpenArgs} {t1 t2 : List Act} (hs : SudoSession rt a (t1 ++ .start :: t2)) :
    t1 = (sysOf t1).map .sys := by
  generalize ht : t1 ++ Act.start :: t2 = t0 at hs
  cases hs with
  | @refused o h hr hno =>
    have : Act.start ∈ h.map Act.sys ++ [.stop] := by rw [← ht]; simp
    simp at this
  | @runs st h t r hr hrun =>
    have hst := running_no_start hrun
    have hns : Act.start ∉ h.map Act.sys := by simp
    rcases List.append_eq_append_iff.1 ht.symm with ⟨x, rfl, hx⟩ | ⟨x, hx, hx'⟩
    · rcases x with _ | ⟨y, x⟩
      · rw [List.append_nil, sysOf_map]
      · simp only [List.cons_append, List.cons.injEq] at hx
        obtain ⟨_, rfl⟩ := hx
        simp at hst
    · rcases x with _ | ⟨y, x⟩
      · rw [List.append_nil] at hx
        rw [← hx, sysOf_map]
      · simp only [List.cons_append, List.cons.injEq] at hx'
        obtain ⟨rfl, _⟩ := hx'
        exact absurd (hx ▸ by simp) hns

theorem running_end {rt : Rt} {st : State} {t : List Act} {r} (hr : Running rt st t r) (ht : Act.stop ∉ t) :
    ∃ st', r = some st' := by
  cases hr with
  | nil => exact ⟨_, rfl⟩
  | pass => exact ⟨_, rfl⟩
  | stop => simp at ht

/-- C85: and not earlier.  A session that has not ended goes on after any number of callbacks that have nothing for the
pair (keys, and input or output of facilities that are not logged), without the plugin doing anything: it does not look
after the connection.  So what the shipped prompt promises, that the command is terminated immediately when the pair
leaves, is not so: a command that says nothing goes on, and so does the user's typing. -/
theorem C85_goes_on {rt : Rt} {a : OpenArgs} {env : IoEnv} {t1 t2 : List Act}
    (hs : SudoSession rt a (t1 ++ .start :: t2)) (hstop : Act.stop ∉ t2) (hnew : IoEnv.new rt a = some (.ok env))
    (hcmd : env.commandInfo.command ≠ []) (hne : ¬ SessionExempt env) (cs : List Call)
    (hc : ∀ c ∈ cs, c.isLog ∧ Quietly env.commandInfo c) :
    SudoSession rt a (t1 ++ .start :: (t2 ++ cs.map .pass)) ∧ sysOf (t2 ++ cs.map .pass) = sysOf t2 := by
  obtain ⟨st, r, hr, hrun⟩ := start_inv hs
  obtain ⟨p, rfl, hpo⟩ := fresh_open_stored hr hnew hcmd
  obtain ⟨fd, rfl, happ⟩ := approvedSession_of hne hpo
  obtain ⟨st', rfl⟩ := running_end hrun hstop
  obtain ⟨rfl, -⟩ := (running_inv (fd := fd) rfl hrun).1 _ rfl
  refine ⟨?_, ?_⟩
  · rw [start_map hs]
    exact .runs hr (running_quietly cs hrun hc)
  · rw [sysOf_append, show sysOf (cs.map .pass) = [] from ?_, List.append_nil]
    clear hc
    induction cs with
    | nil => rfl
    | cons c cs ih => exact ih

theorem first_unique {α : Type} {P : α → Prop} : ∀ {x x' y y' : List α} {r r' : α}, x ++ r :: y = x' ++ r' :: y' →
    (∀ e ∈ x, ¬ P e) → (∀ e ∈ x', ¬ P e) → P r → P r' → r = r'
  | [], [], _, _, _, _, h, _, _, _, _ => by simpa using (List.cons.inj h).1
  | [], b :: x', _, _, _, _, h, _, h', hr, _ => by
    simp only [List.nil_append, List.cons_append, List.cons.injEq] at h
    exact absurd (h.1 ▸ hr) (h' b (by simp))
  | b :: x, [], _, _, _, _, h, h', _, _, hr => by
    simp only [List.nil_append, List.cons_append, List.cons.injEq] at h
    exact absurd (h.1 ▸ hr) (h' b (by simp))
  | b :: x, b' :: x', _, _, _, _, h, h1, h2, hr, hr' => by
    simp only [List.cons_append, List.cons.injEq] at h
    exact first_unique h.2 (fun e he => h1 e (by simp [he])) (fun e he => h2 e (by simp [he])) hr hr'

/-- Who approved is determined by what happened. -/
theorem approved_fd {env : IoEnv} {fd fd' : Nat} {h : Hist} (h1 : ApprovedSession env fd h)
    (h2 : ApprovedSession env fd' h) : fd' = fd := by
  obtain ⟨b, m, a, l, c, r, y, _, _, e, -, -, n1, n2, -, -, -, hr, -⟩ := h1
  obtain ⟨b', m', a', l', c', r', y', _, _, e', -, -, n1', n2', -, -, -, hr', -⟩ := h2
  have q : ∀ {b m a : Hist} {l : Nat} {c : Conn} {r : Ev}, b ++ (⟨.accept l, some c⟩ : Ev) :: (m ++ r :: a) =
      (b ++ (⟨.accept l, some c⟩ : Ev) :: m) ++ r :: a := by simp
  have no : ∀ {b m : Hist} {l : Nat} {c : Conn}, (∀ e ∈ b, ∀ fd, ¬ IsRead fd e) → (∀ e ∈ m, ∀ fd, ¬ IsRead fd e) →
      ∀ e ∈ b ++ (⟨.accept l, some c⟩ : Ev) :: m, ¬ ∃ fd, IsRead fd e := by
    rintro b m l c hb hm e he ⟨fd, hf⟩
    simp only [List.mem_append, List.mem_cons] at he
    rcases he with he | rfl | he
    · exact hb e he fd hf
    · obtain ⟨_, hf⟩ := hf; simp at hf
    · exact hm e he fd hf
  have rd : ∀ {y : UInt8} {fd : Nat} {r : Ev}, Read1 y fd r → IsRead fd r := by
    intro y fd r hr
    rcases r with ⟨c, z⟩
    cases c <;> first | exact hr.elim | skip
    rename_i g n
    cases z <;> first | exact hr.elim | skip
    exact ⟨n, by rw [hr.1]⟩
  rw [q] at e e'
  obtain rfl := first_unique (P := fun e => ∃ fd, IsRead fd e) (e.symm.trans e') (no n1 n2) (no n1' n2') ⟨_, rd hr⟩ ⟨_, rd hr'⟩
  obtain ⟨_, k⟩ := rd hr
  obtain ⟨_, k'⟩ := rd hr'
  rw [k] at k'
  simpa using (Sys.sockRead.inj k').1.symm

/-- C85: so a callback is one after which a session that has not ended can go on although the connection is lost, exactly
if it has nothing for the pair and is not input to be refused. -/
theorem C85_iff {rt : Rt} {a : OpenArgs} {env : IoEnv} {t1 t2 : List Act}
    (hs : SudoSession rt a (t1 ++ .start :: t2)) (hstop : Act.stop ∉ t2) (hb : Between t2)
    (hnew : IoEnv.new rt a = some (.ok env)) (hcmd : env.commandInfo.command ≠ []) (hne : ¬ SessionExempt env) :
    ∃ fd, ApprovedSession env fd (sysOf t1) ∧ ∀ c : Call, c.isLog →
      ((∃ h : Hist, Lost fd h ∧ SudoSession rt a (t1 ++ .start :: (t2 ++ (h.map .sys ++ [.pass c])))) ↔
        Quietly env.commandInfo c) := by
  obtain ⟨st, r, hr, hrun⟩ := start_inv hs
  obtain ⟨p, rfl, hpo⟩ := fresh_open_stored hr hnew hcmd
  have hx := approved_state hne hpo
  obtain ⟨fd, rfl, happ⟩ := approvedSession_of hne hpo
  refine ⟨fd, happ, fun c hc => ⟨?_, fun hq => ⟨[], by simp [Lost], ?_⟩⟩⟩
  · rintro ⟨h, hl, hs2⟩
    obtain ⟨st2, r2, hr2, hrun2⟩ := start_inv hs2
    obtain ⟨p2, rfl, hpo2⟩ := fresh_open_stored hr2 hnew hcmd
    obtain ⟨fd2, rfl, happ2⟩ := approvedSession_of hne hpo2
    obtain rfl := approved_fd happ happ2
    refine running_lost (p := { Pair.ofEnv env with socket := some fd2 }) rfl hx hrun2 t2 _ rfl hb ?_ c ?_
    · rw [sysOf_append, sysOf_map]
      show Lost fd2 (h ++ [])
      rw [List.append_nil]; exact hl
    · rw [passed_append, passed_map]
      simp [passed]
  · have := (C85_goes_on hs hstop hnew hcmd hne [c] (by simpa using ⟨hc, hq⟩)).1
    simpa using this

/-! ### Concrete cases -/

/-- Replies as of a cooperative system and pair, until the connection is lost. -/
def lostConn : Answer
  | .sockWrite _ _ => .fail
  | c              => coop 121 c

/-- Non-vacuity: a session whose pair is lost after the first output: ten keys reach the command all the same, and the
next output ends the session. -/
example :
    let t := frontend sampleRt sampleArgs (.log .ttyout (b! "$ ") :: List.replicate 10 (.log .ttyin (b! "k")) ++
      [.log .ttyout (b! "k"), .log .ttyin (b! "k")]) (List.replicate 37 (coop 121) ++ List.replicate 20 lostConn)
    SudoSession sampleRt sampleArgs t ∧ shown .ttyin t = List.replicate 10 107 ∧ shown .ttyout t = b! "$ " ∧
    ((sysOf (followed t)).filterMap fun | ⟨.sockWrite 8 b, r⟩ => some (b, r) | _ => none) =
      [(b! "$ ", .wrote 2), (b! "k", .fail)] := by
  refine ⟨frontend_session _ _ _ _ (by simp [Call.isLog]), ?_⟩
  decide +kernel
end SudoPair
