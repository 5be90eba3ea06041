import Verif.Props.Session
import Verif.Spec.Fs
/-
The history of `open`, divided into its phases, and its effect on the file system.
-/
namespace SudoPair
open Spec

/-- Interactions after `Socket::open` has returned. -/
def TailCall : Sys → Prop
  | .readFile _ => True
  | .sockRead _ _ => True
  | .sockWrite _ _ => True
  | .sigGet => True
  | .sigSet _ => True
  | .shutdown _ => True
  | .printf _ _ => True
  | _ => False

theorem tail_of_prompt {fd c} (h : PromptCall fd c) : TailCall c := by
  cases c <;> first | exact h.elim | exact h | trivial

theorem tail_of_print {c} (h : PrintCall c) : TailCall c := by
  cases c <;> first | exact h.elim | exact h | trivial

/-- The phases of `SudoPair::open`: local prompt, `Socket::open`, the rest. -/
theorem pairOpen_phases {rt p o h} (hp : PairOpen rt p o h) :
    Quiet h ∨
    ∃ h1 h2 h3 mode o2, h = h1 ++ (h2 ++ h3) ∧ Quiet h1 ∧ p.toUserAndGroup = false ∧
      p.isExempt rt.debug = some false ∧
      p.socketMode = some mode ∧ SockOpen rt p.socketPath p.socketUid p.socketGid mode o2 h2 ∧
      (∀ e ∈ h3, TailCall e.call) ∧ ((∀ c, o2 ≠ .ok (some c)) → h3 = []) ∧ (o2 = .panic → o = .panic) ∧
      (o2 = .killed → o = .killed) := by
  have ht : ∀ {fd o h}, Runs (p.remotePairPrompt p.templateSpec fd) o h → ∀ e ∈ h, TailCall e.call :=
    fun hr e he => tail_of_prompt (promptCall_of (remotePairPrompt_runs hr) e he)
  cases hp with
  | undecided => exact Or.inl quiet_nil
  | exempt => exact Or.inl quiet_nil
  | both => exact Or.inl quiet_nil
  | localPanic _ _ hl => exact Or.inl ((localPairPrompt_quiet p _).of_runs hl)
  | localKilled _ _ hl => exact Or.inl ((localPairPrompt_quiet p _).of_runs hl)
  | noMode _ _ hl => exact Or.inl ((localPairPrompt_quiet p _).of_runs hl)
  | sockPanic hx hb hl hc =>
    obtain ⟨mode, hm, hs⟩ := hc
    exact Or.inr ⟨_, _, [], mode, _, by simp, (localPairPrompt_quiet p _).of_runs hl, hb, hx, hm, open'_runs hs,
      by simp, by simp, by simp, by simp⟩
  | sockKilled hx hb hl hc =>
    obtain ⟨mode, hm, hs⟩ := hc
    exact Or.inr ⟨_, _, [], mode, _, by simp, (localPairPrompt_quiet p _).of_runs hl, hb, hx, hm, open'_runs hs,
      by simp, by simp, by simp, by simp⟩
  | sockErr hx hb hl hc =>
    obtain ⟨mode, hm, hs⟩ := hc
    exact Or.inr ⟨_, _, [], mode, _, by simp, (localPairPrompt_quiet p _).of_runs hl, hb, hx, hm, open'_runs hs,
      by simp, by simp, by simp, by simp⟩
  | approved hx hb hl hc hr =>
    obtain ⟨mode, hm, hs⟩ := hc
    exact Or.inr ⟨_, _, _, mode, _, rfl, (localPairPrompt_quiet p _).of_runs hl, hb, hx, hm, open'_runs hs,
      ht hr, by simp, by simp, by simp⟩
  | declined hx hb hl hc hr =>
    obtain ⟨mode, hm, hs⟩ := hc
    exact Or.inr ⟨_, _, _, mode, _, rfl, (localPairPrompt_quiet p _).of_runs hl, hb, hx, hm, open'_runs hs,
      List.forall_mem_append.2 ⟨ht hr, by simp [TailCall]⟩, by simp, by simp, by simp⟩
  | paniced hx hb hl hc hr =>
    obtain ⟨mode, hm, hs⟩ := hc
    exact Or.inr ⟨_, _, _, mode, _, rfl, (localPairPrompt_quiet p _).of_runs hl, hb, hx, hm, open'_runs hs,
      List.forall_mem_append.2 ⟨ht hr, by simp [TailCall]⟩, by simp, by simp, by simp⟩
  | killed hx hb hl hc hr =>
    obtain ⟨mode, hm, hs⟩ := hc
    exact Or.inr ⟨_, _, _, mode, _, rfl, (localPairPrompt_quiet p _).of_runs hl, hb, hx, hm, open'_runs hs,
      ht hr, by simp, by simp, by simp⟩

/-- The phases of the `open` callback. -/
theorem coreOpen_phases {rt a st o h} (hr : Runs (Core.open rt a st) o h) :
    Quiet h ∨
    ∃ env0 p h1 h2 h3 mode o2, IoEnv.new rt a = some (.ok env0) ∧ p = Pair.ofEnv (effEnv st env0) ∧
      h = h1 ++ (h2 ++ h3) ∧ Quiet h1 ∧ p.toUserAndGroup = false ∧ p.isExempt rt.debug = some false ∧
      p.socketMode = some mode ∧ SockOpen rt p.socketPath p.socketUid p.socketGid mode o2 h2 ∧
      (∀ e ∈ h3, TailCall e.call) ∧ ((∀ c, o2 ≠ .ok (some c)) → Prints h3) ∧
      (o2 = .panic → o = .ok (-1, withEnv st env0)) ∧ (o2 = .killed → o = .killed) ∧
      ((∀ c, o2 ≠ .ok (some c)) → (∃ st', o = .ok (-1, st')) ∨ o = .killed) := by
  have lift : ∀ {env0 o' h1 t}, IoEnv.new rt a = some (.ok env0) →
      PairOpen rt (Pair.ofEnv (effEnv st env0)) o' h1 →
      (∀ e ∈ t, TailCall e.call) → (Quiet h1 → Quiet t) →
      ((∀ q, o' ≠ .ok (.ok q)) → Prints t) → (o' = .panic → o = .ok (-1, withEnv st env0)) →
      (o' = .killed → o = .killed) →
      ((∃ e, o' = .ok (.error e)) → (∃ st', o = .ok (-1, st')) ∨ o = .killed) →
      h = h1 ++ t → 
      Quiet h ∨ ∃ env0 p h1 h2 h3 mode o2, IoEnv.new rt a = some (.ok env0) ∧ p = Pair.ofEnv (effEnv st env0) ∧
      h = h1 ++ (h2 ++ h3) ∧ Quiet h1 ∧ p.toUserAndGroup = false ∧ p.isExempt rt.debug = some false ∧
      p.socketMode = some mode ∧ SockOpen rt p.socketPath p.socketUid p.socketGid mode o2 h2 ∧
      (∀ e ∈ h3, TailCall e.call) ∧ ((∀ c, o2 ≠ .ok (some c)) → Prints h3) ∧
      (o2 = .panic → o = .ok (-1, withEnv st env0)) ∧ (o2 = .killed → o = .killed) ∧
      ((∀ c, o2 ≠ .ok (some c)) → (∃ st', o = .ok (-1, st')) ∨ o = .killed) := by
    intro env0 o' h1 t hnew hpo htail hq hpr hpan hkil herr hh
    rcases pairOpen_phases hpo with h1q | ⟨g1, g2, g3, mode, o2, rfl, k1, k2, k3, k4, k5, k6, k7, k8, k9⟩
    · left; subst hh; exact h1q.append (hq h1q)
    · right
      have hnot : (∀ c, o2 ≠ .ok (some c)) → ∀ q, o' ≠ .ok (.ok q) := by
        intro hc q ho'
        subst ho'
        cases hpo' : o2 with
        | panic => have := k8 hpo'; simp at this
        | killed => have := k9 hpo'; simp at this
        | ok c =>
          cases c with
          | some c => exact hc c hpo'
          | none =>
            -- a successful `open` is connected
            obtain ⟨h0, a', lfd, conn, b, r, h1, e, h2, c, heq, _⟩ := pairOpen_approved (by rw [k3]; simp) hpo
            have hg3 := k7 hc
            subst hg3
            have hread : e ∈ g1 ++ (g2 ++ []) := by rw [heq]; simp
            have hrd : Read1 c conn.fd e := by
              rename_i hrest
              exact hrest.2.2.2.2.2.2.2.1
            rcases e with ⟨call, resp⟩
            cases call with
            | sockRead fd' len =>
              simp only [List.append_nil, List.mem_append] at hread
              rcases hread with hread | hread
              · exact k1 _ hread
              · exact (sockOpen_setup k5 _ hread)
            | _ => exact hrd
      refine ⟨env0, _, g1, g2, g3 ++ t, mode, o2, hnew, rfl, ?_, k1, k2, k3, k4, k5,
        List.forall_mem_append.2 ⟨k6, htail⟩, ?_, fun h => hpan (k8 h), fun h => hkil (k9 h), ?_⟩
      · subst hh; simp
      · intro hc
        rw [k7 hc, List.nil_append]
        exact hpr (hnot hc)
      · intro hc
        rcases ho : o' with (e | q) | _ | _
        · exact herr ⟨e, ho⟩
        · exact absurd ho (hnot hc q)
        · exact Or.inl ⟨_, hpan ho⟩
        · exact Or.inr (hkil ho)
  cases coreOpen_runs hr with
  | envPanic => exact Or.inl quiet_nil
  | envErr _ hq => exact Or.inl hq.quiet
  | envKilled _ hq => exact Or.inl hq.quiet
  | empty => exact Or.inl quiet_nil
  | panic k1 k2 k3 =>
    exact lift k1 k3 (t := []) (by simp) (fun _ => quiet_nil) (by simp [Prints]) (fun _ => rfl) (by simp) (by simp)
      (by simp)
  | killed k1 k2 k3 =>
    exact lift k1 k3 (t := []) (by simp) (fun _ => quiet_nil) (by simp [Prints]) (by simp) (by simp) (by simp)
      (by simp)
  | refused k1 k2 k3 k4 =>
    exact lift k1 k3 (fun e he => tail_of_print (k4 e he)) (fun _ => k4.quiet) (fun _ => k4) (by simp) (by simp)
      (fun _ => Or.inl ⟨_, rfl⟩) rfl
  | refusedKilled k1 k2 k3 k4 =>
    exact lift k1 k3 (fun e he => tail_of_print (k4 e he)) (fun _ => k4.quiet) (fun _ => k4) (by simp) (by simp)
      (fun _ => Or.inr rfl) rfl
  | accepted k1 k2 k3 k4 =>
    exact lift k1 k3 (t := []) (by simp) (fun _ => quiet_nil) (by simp [Prints]) (by simp) (by simp) (by simp)
      (by simp)
  | again k1 k2 k3 k4 k5 =>
    rename_i env0 q q' g1 g2
    refine lift k1 k3 (t := g2) ?_ ?_ ?_ (by simp) (by simp) (by simp) rfl
    · rcases drop_runs k5 with ⟨_, rfl⟩ | ⟨_, _, rfl⟩ | ⟨fd, b, _, _, rfl⟩ <;> simp [TailCall]
    · intro hq
      rcases drop_runs k5 with ⟨_, rfl⟩ | ⟨_, _, rfl⟩ | ⟨fd, b, hs, _, rfl⟩
      · exact quiet_nil
      · exact quiet_nil
      · exfalso
        by_cases hx : (Pair.ofEnv (effEnv st env0)).isExempt rt.debug = some true
        · generalize ho : Out.ok (Except.ok q) = o' at k3
          cases k3 with
          | exempt _ =>
            simp only [Out.ok.injEq, Except.ok.injEq] at ho
            rw [ho] at hs; simp [Pair.ofEnv] at hs
          | approved h1 => rw [hx] at h1; simp at h1
          | _ => simp at ho
        · obtain ⟨h0, a', lfd, conn, b, r, h1, e, h2, c, rfl, _⟩ := pairOpen_approved hx k3
          have := hq ⟨.accept lfd, some conn⟩ (by simp)
          exact this
    · intro hne; exact absurd rfl (hne q)
  | againKilled k1 k2 k3 k4 =>
    exact lift k1 k3 (t := []) (by simp) (fun _ => quiet_nil) (by simp [Prints]) (by simp) (by simp) (by simp)
      (by simp)

end SudoPair

namespace SudoPair
open Spec

/-- `Q` holds of the file-system state at every instant of a history. -/
def Always (path : Bytes) (euid grp : Nat) (Q : Fs → Prop) : Fs → Hist → Prop
  | s, [] => Q s
  | s, e :: h => Q s ∧ Always path euid grp Q (Fs.step path euid grp s e) h

theorem fs_run_append {path euid grp s a b} :
    Fs.run path euid grp s (a ++ b) = Fs.run path euid grp (Fs.run path euid grp s a) b := by
  simp [Fs.run]

theorem fs_run_cons {path euid grp s e h} :
    Fs.run path euid grp s (e :: h) = Fs.run path euid grp (Fs.step path euid grp s e) h := rfl

theorem fs_run_nil {path euid grp s} : Fs.run path euid grp s [] = s := rfl

theorem always_append {path euid grp Q} : ∀ {a s b}, Always path euid grp Q s a →
    Always path euid grp Q (Fs.run path euid grp s a) b → Always path euid grp Q s (a ++ b)
  | [], _, _, _, h2 => h2
  | _ :: _, _, _, h1, h2 => ⟨h1.1, always_append h1.2 h2⟩

theorem always_prefix {path euid grp Q} : ∀ {a s b}, Always path euid grp Q s (a ++ b) →
    Q (Fs.run path euid grp s a)
  | [], _, [], h => h
  | [], _, _ :: _, h => h.1
  | _ :: a, _, b, h => always_prefix (a := a) (b := b) h.2

/-- Calls that leave umask and files alone. -/
def FsCall : Sys → Prop
  | .umask _ => True
  | .bind _ => True
  | .chown _ _ _ => True
  | .chmod _ _ => True
  | .removeFile _ => True
  | _ => False

theorem fs_step_neutral {path euid grp s e} (h : ¬ FsCall e.call) : Fs.step path euid grp s e = s := by
  rcases e with ⟨c, r⟩
  cases c <;> first | rfl | exact absurd trivial h

theorem fs_run_neutral {path euid grp} : ∀ {h s}, (∀ e ∈ h, ¬ FsCall e.call) → Fs.run path euid grp s h = s
  | [], _, _ => rfl
  | _ :: _, _, h => by
    rw [fs_run_cons, fs_step_neutral (h _ (by simp)), fs_run_neutral (fun e he => h e (by simp [he]))]

theorem always_neutral {path euid grp Q} : ∀ {h s}, (∀ e ∈ h, ¬ FsCall e.call) → Q s →
    Always path euid grp Q s h
  | [], _, _, hq => hq
  | _ :: _, _, h, hq => ⟨hq, by
    rw [fs_step_neutral (h _ (by simp))]
    exact always_neutral (fun e he => h e (by simp [he])) hq⟩

theorem not_fs_of_tail {c} (h : TailCall c) : ¬ FsCall c := by
  cases c <;> first | exact h.elim | exact fun h => h

theorem quiet_not_fs {h : Hist} (hq : Quiet h) : ∀ e ∈ h, ¬ FsCall e.call := by
  intro e he
  have := hq e he
  rcases e with ⟨c, r⟩
  cases c <;> first | exact (this).elim | exact fun h => h

end SudoPair

namespace SudoPair
open Spec

/-- Tail interactions only. -/
abbrev AllTail {α : Type} (m : M α) : Prop := AllEv (fun e => TailCall e.call) m

theorem prints_tail {α : Type} {m : M α} (h : AllEv (fun e => PrintCall e.call) m) : AllTail m :=
  allEv_mono h (fun _ h => tail_of_print h)

theorem ctrlCAborts_tail {α : Type} {m : M α} (h : AllTail m) : AllTail (ctrlCAborts m) := by
  unfold ctrlCAborts
  refine allEv_bind (allEv_sys (fun _ => trivial)) ?_
  rintro (_ | old)
  · exact allEv_pure _
  · refine allEv_bind (allEv_sys (fun _ => trivial)) ?_
    intro b
    refine allEv_ite (allEv_bind h fun r => allEv_bind (allEv_sys (fun _ => trivial)) fun b => ?_) (allEv_pure _)
    exact allEv_ite (allEv_pure _) (allEv_pure _)

theorem socketWriteAll_tail (fd : Nat) (buf : Bytes) : AllTail (Socket.writeAll fd buf) := by
  refine allEv_writeAll (fun b => ?_) buf
  unfold Socket.write
  refine allEv_bind (ctrlCAborts_tail (allEv_sys (fun _ => trivial))) ?_
  rintro (_ | r) <;> exact allEv_pure _

theorem logOutput_tail (p : Pair) (buf : Bytes) : AllTail (p.logOutput buf) := by
  unfold Pair.logOutput
  split
  · exact allEv_pure _
  · exact allEv_bind (socketWriteAll_tail _ _) fun b => allEv_ite (allEv_pure _) (allEv_pure _)

theorem socketClose_tail (fd : Nat) : AllTail (Socket.close fd) :=
  allEv_bind (allEv_sys (fun _ => trivial)) fun _ => allEv_pure _

theorem finish_tail (env : IoEnv) (r : Except ErrorKind Unit) : AllTail (Core.finish env r) := by
  rcases r with e | ⟨⟨⟩⟩
  · exact allEv_bind (prints_tail (writeError_prints _ _ _)) fun _ => allEv_pure _
  · exact allEv_pure _

theorem handler_tail (rt : Rt) (p : Pair) (buf : Bytes) (g : Facility) :
    AllTail (Core.handler rt p buf g) := by
  cases g
  · exact allEv_pure _
  · exact logOutput_tail _ _
  · exact allEv_bind (allEv_ofOption _) fun _ => allEv_ite (allEv_pure _) (allEv_pure _)
  · exact logOutput_tail _ _
  · exact logOutput_tail _ _

/-- Callbacks other than `open` neither touch the file system nor the umask. -/
theorem step_tail (rt : Rt) (c : Core.Call) (st : State) (hc : ∀ a, c ≠ .open a) :
    AllTail (Core.step rt c st) := by
  cases c with
  | «open» a => exact absurd rfl (hc a)
  | close =>
    refine allEv_bind ?_ fun _ => allEv_pure _
    unfold Core.close
    cases st.plugin with
    | none => exact allEv_bind (allEv_pure _) fun _ => allEv_pure _
    | some p =>
      refine allEv_bind ?_ fun _ => allEv_pure _
      unfold Pair.close
      split
      · exact allEv_pure _
      · exact allEv_bind (socketClose_tail _) fun _ => socketClose_tail _
  | showVersion =>
    refine allEv_bind (allEv_bind (allEv_catchUnwind ?_) ?_) fun _ => allEv_pure _
    · exact allEv_bind (allEv_ofOption _) fun env =>
        allEv_bind (prints_tail (writePieces_prints _ _)) fun _ => allEv_pure _
    · rintro (_ | ⟨⟨⟩⟩) <;> exact allEv_pure _
  | log f buf =>
    refine allEv_bind (allEv_bind (allEv_catchUnwind ?_) fun _ => allEv_pure _) fun _ => allEv_pure _
    exact allEv_bind (allEv_ofOption _) fun env => allEv_bind (allEv_ofOption _) fun p =>
      allEv_ite (allEv_pure _) (allEv_bind (handler_tail rt p buf f) fun _ => finish_tail _ _)
  | changeWinsize l c =>
    refine allEv_bind (allEv_bind (allEv_catchUnwind ?_) fun _ => allEv_pure _) fun _ => allEv_pure _
    exact allEv_bind (allEv_ofOption _) fun env => allEv_bind (allEv_ofOption _) fun p =>
      allEv_bind (logOutput_tail _ _) fun _ => finish_tail _ _

end SudoPair
