import Verif.Lemmas.Fs
/-
Invariants of histories that are established piece by piece: by every single interaction outside of
`ctrl_c_aborts_syscalls` and by every use of `ctrl_c_aborts_syscalls`.
-/
namespace SudoPair

/-- Whether a run was cut short. -/
def Out.isKilled {α : Type} : Out α → Bool
  | .killed => true
  | _ => false

/-- A property of a history and of whether it was cut short that is preserved by sequencing. -/
structure Piecewise (J : Bool → Hist → Prop) : Prop where
  nil : ∀ k, J k []
  append : ∀ {h h' k}, J false h → J k h' → J k (h ++ h')

/-- All runs of `m` have the property. -/
def Keeps {α : Type} (J : Bool → Hist → Prop) (m : M α) : Prop := wp m (fun o h => J o.isKilled h)

section
variable {J : Bool → Hist → Prop} (hJ : Piecewise J) {α β : Type}
include hJ

theorem keeps_pure (a : α) : Keeps J (pure a) := wp_pure (hJ.nil _)

theorem keeps_panic : Keeps J (M.panic : M α) := wp_panic (hJ.nil _)

theorem keeps_killed : Keeps J (M.killed : M α) := wp_killed (hJ.nil _)

theorem keeps_ofOption (x : Option α) : Keeps J (M.ofOption x) := by
  cases x
  · exact keeps_panic hJ
  · exact keeps_pure hJ _

theorem keeps_sys {c : Sys} (h : ∀ r, J false [⟨c, r⟩]) : Keeps J (M.sys c) :=
  wp_sys (hJ.nil _) h

theorem keeps_bind {m : M α} {f : α → M β} (hm : Keeps J m) (hf : ∀ a, Keeps J (f a)) :
    Keeps J (m >>= f) := by
  refine wp_bind (wp_mono hm ?_)
  rintro (a | _ | _) h hh
  · exact wp_mono (hf a) (fun o h' hh' => hJ.append hh hh')
  · exact hh
  · exact hh

omit hJ in
theorem keeps_ite {c : Prop} [Decidable c] {m n : M α} (hm : Keeps J m) (hn : Keeps J n) :
    Keeps J (if c then m else n) := wp_ite (fun _ => hm) (fun _ => hn)

omit hJ in
theorem keeps_catchUnwind {m : M α} (hm : Keeps J m) : Keeps J (M.catchUnwind m) := by
  refine wp_catchUnwind (wp_mono hm ?_)
  rintro (a | _ | _) h hh <;> exact hh

theorem keeps_onUnwind {m : M α} {c : M Unit} (hm : Keeps J m) (hc : Keeps J c) :
    Keeps J (M.onUnwind m c) := by
  refine wp_onUnwind (wp_mono hm ?_)
  rintro (a | _ | _) h hh
  · exact hh
  · unfold unwindPost
    refine wp_mono hc ?_
    rintro (a | _ | _) h' hh' <;> exact hJ.append hh hh'
  · exact hh

theorem keeps_writeAll {w : Bytes → M WriteRes} (hw : ∀ b, Keeps J (w b)) (buf : Bytes) :
    Keeps J (writeAll w buf) := by
  refine wp_writeAll (P := fun _ o h => J o.isKilled h) (hJ.nil _) (fun _ _ => hJ.nil _) ?_ buf
  intro buf _
  refine wp_mono (hw buf) ?_
  rintro (((_ | n) | _ | _) | _ | _) h hh
  · exact hh
  · exact ⟨fun _ o h' hp => hJ.append hh hp, fun _ => hh⟩
  · exact fun o h' hp => hJ.append hh hp
  · exact hh
  · exact hh
  · exact hh

end

/-- The interactions outside of `ctrl_c_aborts_syscalls`. -/
def PlainCall : Sys → Prop
  | .sockRead _ _ => False
  | .sockWrite _ _ => False
  | .sigGet => False
  | .sigSet _ => False
  | _ => True

/-- What has to be shown for an invariant to hold of all callbacks. -/
structure PieceInv (J : Bool → Hist → Prop) : Prop extends Piecewise J where
  plain : ∀ c r, PlainCall c → J false [⟨c, r⟩]
  read : ∀ fd o h, Guarded (.sockRead fd 1) o h → J o.isKilled h
  write : ∀ fd buf o h, Guarded (.sockWrite fd buf) o h → J o.isKilled h
  flush : ∀ o h, GuardedFlush o h → J o.isKilled h

section
variable {J : Bool → Hist → Prop} (hI : PieceInv J)
include hI

theorem keeps_plain {c : Sys} (h : PlainCall c) : Keeps J (M.sys c) :=
  keeps_sys hI.toPiecewise (fun r => hI.plain c r h)

theorem keeps_read (fd : Nat) : Keeps J (Socket.read fd 1) := by
  refine wp_iff_runs.2 ?_
  intro o h hr
  obtain ⟨o', hg, ho⟩ := read_runs hr
  have := hI.read fd o' h hg
  rcases ho with ⟨rfl, rfl⟩ | ⟨rfl, rfl⟩ | ⟨r, rfl, rfl⟩ <;> exact this

theorem keeps_write (fd : Nat) (buf : Bytes) : Keeps J (Socket.write fd buf) := by
  refine wp_iff_runs.2 ?_
  intro o h hr
  obtain ⟨o', hg, ho⟩ := write_runs hr
  have := hI.write fd buf o' h hg
  rcases ho with ⟨rfl, rfl⟩ | ⟨rfl, rfl⟩ | ⟨r, rfl, rfl⟩ <;> exact this

theorem keeps_socketWriteAll (fd : Nat) (buf : Bytes) : Keeps J (Socket.writeAll fd buf) :=
  keeps_writeAll hI.toPiecewise (keeps_write hI fd) buf

theorem keeps_flush : Keeps J Socket.flush :=
  wp_iff_runs.2 fun _ _ hr => hI.flush _ _ (flush_runs hr)

theorem keeps_socketClose (fd : Nat) : Keeps J (Socket.close fd) :=
  keeps_bind hI.toPiecewise (keeps_plain hI (by exact trivial)) fun _ => keeps_pure hI.toPiecewise _

theorem keeps_printWriteAll (pf : PrintFacility) (buf : Bytes) : Keeps J (pf.writeAll buf) := by
  refine keeps_writeAll hI.toPiecewise (fun b => ?_) buf
  unfold PrintFacility.write
  exact keeps_ite (keeps_pure hI.toPiecewise _) (keeps_ite (keeps_pure hI.toPiecewise _) (keeps_plain hI (by exact trivial)))

theorem keeps_writeLine (pf : PrintFacility) (l : Bytes) : Keeps J (pf.writeLine l) :=
  keeps_bind hI.toPiecewise (keeps_printWriteAll hI _ _) fun _ => keeps_ite
    (keeps_bind hI.toPiecewise (keeps_printWriteAll hI _ _) fun _ => keeps_ite
      (keeps_printWriteAll hI _ _) (keeps_pure hI.toPiecewise _))
    (keeps_pure hI.toPiecewise _)

theorem keeps_sourceLoop (pf : PrintFacility) (src : Option Bytes) : ∀ n, Keeps J (pf.sourceLoop src n)
  | 0 => keeps_killed hI.toPiecewise
  | n + 1 => by
    unfold PrintFacility.sourceLoop
    cases src with
    | none => exact keeps_pure hI.toPiecewise _
    | some m =>
      exact keeps_bind hI.toPiecewise (keeps_writeLine hI _ _) fun _ => keeps_ite
        (keeps_sourceLoop pf (some m) n) (keeps_pure hI.toPiecewise _)

theorem keeps_writeError (pf : PrintFacility) (m : Bytes) (src : Option Bytes) :
    Keeps J (pf.writeError m src) :=
  keeps_bind hI.toPiecewise (keeps_printWriteAll hI _ _) fun _ => keeps_ite
    (keeps_bind hI.toPiecewise (keeps_writeLine hI _ _) fun _ => keeps_ite
      (fun s => keeps_sourceLoop hI pf src (s.length + 1) s) (keeps_pure hI.toPiecewise _))
    (keeps_pure hI.toPiecewise _)

theorem keeps_writePieces (pf : PrintFacility) : ∀ l, Keeps J (Core.writePieces pf l)
  | [] => keeps_pure hI.toPiecewise _
  | _ :: l => keeps_bind hI.toPiecewise (keeps_printWriteAll hI _ _) fun _ => keeps_ite
      (keeps_writePieces pf l) (keeps_pure hI.toPiecewise _)

theorem keeps_unlink (path : Bytes) : Keeps J (Socket.unlink path) := by
  refine keeps_bind hI.toPiecewise (keeps_plain hI (by exact trivial)) ?_
  rintro (_ | _ | _)
  · exact keeps_pure hI.toPiecewise _
  · exact keeps_pure hI.toPiecewise _
  · exact keeps_plain hI (by exact trivial)

theorem keeps_open' (rt : Rt) (path : Bytes) (uid gid mode : Nat) :
    Keeps J (Socket.open' rt path uid gid mode) := by
  have P := hI.toPiecewise
  have fin : ∀ old (x : Option Conn), Keeps J (do
      let _ ← Socket.unlink path
      let _ ← M.sys (.umask old)
      pure x) := fun old x => keeps_bind P (keeps_unlink hI _) fun _ =>
        keeps_bind P (keeps_plain hI (by exact trivial)) fun _ => keeps_pure P _
  refine keeps_bind P ?_ fun _ => keeps_ite (keeps_bind P (keeps_unlink hI _) fun _ => keeps_ite
    (keeps_bind P (keeps_plain hI (by exact trivial)) fun old => keeps_bind P (keeps_plain hI (by exact trivial))
      fun r => ?_) (keeps_pure P _)) (keeps_pure P _)
  · unfold Socket.enforceOwnership
    split
    · exact keeps_pure P _
    · refine keeps_ite (keeps_pure P _) (keeps_bind P (keeps_plain hI (by exact trivial)) ?_)
      rintro (_ | st)
      · exact keeps_pure P _
      · exact keeps_ite (keeps_pure P _) (keeps_ite (keeps_pure P _) (keeps_ite (keeps_pure P _) (keeps_pure P _)))
  · rcases r with fd | _ | _
    · refine keeps_bind P ?_ fun x => fin old x
      refine keeps_ite (keeps_pure P _) (keeps_bind P (keeps_plain hI (by exact trivial)) fun _ => keeps_ite
        (keeps_bind P (keeps_plain hI (by exact trivial)) fun _ => keeps_ite (keeps_ite (keeps_panic P)
          (keeps_bind P (keeps_plain hI (by exact trivial)) fun r => ?_)) (keeps_pure P _)) (keeps_pure P _))
      rcases r with ⟨n, b⟩
      split
      · exact keeps_plain hI (by exact trivial)
      · exact keeps_panic P
      · exact keeps_pure P _
      · exact keeps_panic P
    · exact keeps_bind P (keeps_pure P _) fun x => fin old x
    · exact keeps_bind P (keeps_pure P _) fun x => fin old x

theorem keeps_localPairPrompt (p : Pair) (spec : TemplateSpec) : Keeps J (p.localPairPrompt spec) := by
  have P := hI.toPiecewise
  refine keeps_bind P (keeps_plain hI (by exact trivial)) fun _ => keeps_bind P ?_ fun _ => keeps_ite (keeps_pure P _)
    (keeps_bind P (keeps_printWriteAll hI _ _) fun _ => keeps_pure P _)
  unfold Pair.ttyPrompt
  split
  · exact keeps_pure P _
  · exact keeps_bind P (keeps_plain hI (by exact trivial)) fun _ => keeps_ite
      (keeps_writeAll P (fun _ => keeps_plain hI (by exact trivial)) _) (keeps_pure P _)

theorem keeps_remotePairPrompt (p : Pair) (spec : TemplateSpec) (fd : Nat) :
    Keeps J (p.remotePairPrompt spec fd) := by
  have P := hI.toPiecewise
  refine keeps_bind P (keeps_plain hI (by exact trivial)) fun _ => keeps_bind P (keeps_socketWriteAll hI _ _) fun _ =>
    keeps_ite (keeps_bind P (keeps_flush hI) fun _ => keeps_ite (keeps_bind P (keeps_read hI _) fun r => ?_)
      (keeps_pure P _)) (keeps_pure P _)
  split
  · exact keeps_pure P _
  · exact keeps_bind P (keeps_socketWriteAll hI _ _) fun _ => keeps_bind P (keeps_socketWriteAll hI _ _) fun _ =>
      keeps_ite (keeps_pure P _) (keeps_pure P _)

theorem keeps_pairOpen (rt : Rt) (env : IoEnv) : Keeps J (Pair.open rt env) := by
  have P := hI.toPiecewise
  refine keeps_bind P (keeps_ofOption P _) fun _ => keeps_ite (keeps_pure P _) (keeps_ite (keeps_pure P _)
    (keeps_bind P (keeps_localPairPrompt hI _ _) fun _ => keeps_bind P ?_ fun r => ?_))
  · refine keeps_bind P (keeps_ofOption P _) fun mode => keeps_bind P (keeps_open' hI _ _ _ _ _) fun c => ?_
    rcases c with _ | c <;> exact keeps_pure P _
  · rcases r with e | fd
    · exact keeps_pure P _
    · refine keeps_onUnwind P (keeps_bind P (keeps_remotePairPrompt hI _ _ _) fun r => ?_) (keeps_socketClose hI _)
      rcases r with e | ⟨⟨⟩⟩
      · exact keeps_bind P (keeps_socketClose hI _) fun _ => keeps_pure P _
      · exact keeps_pure P _

theorem keeps_coreOpen (rt : Rt) (a : OpenArgs) (st : State) : Keeps J (Core.open rt a st) := by
  have P := hI.toPiecewise
  refine keeps_bind P (keeps_catchUnwind (keeps_bind P (keeps_ofOption P _) fun r => ?_)) fun r => ?_
  · rcases r with e | env
    · exact keeps_bind P (keeps_writeError hI _ _ _) fun _ => keeps_pure P _
    · exact keeps_pure P _
  · rcases r with _ | e | env
    · exact keeps_pure P _
    · exact keeps_pure P _
    · refine keeps_bind P (keeps_catchUnwind (keeps_ite (keeps_pure P _)
        (keeps_bind P (keeps_pairOpen hI _ _) fun r => ?_))) fun r => ?_
      · rcases r with e | env
        · exact keeps_bind P (keeps_writeError hI _ _ _) fun _ => keeps_pure P _
        · exact keeps_pure P _
      · rcases r with _ | e | p
        · exact keeps_pure P _
        · exact keeps_pure P _
        · dsimp only
          cases st.plugin with
          | none => exact keeps_pure P _
          | some q =>
            refine keeps_bind P ?_ fun _ => keeps_pure P _
            unfold Pair.drop
            split
            · exact keeps_pure P _
            · exact keeps_socketClose hI _

theorem keeps_logOutput (p : Pair) (buf : Bytes) : Keeps J (p.logOutput buf) := by
  have P := hI.toPiecewise
  unfold Pair.logOutput
  split
  · exact keeps_pure P _
  · exact keeps_bind P (keeps_socketWriteAll hI _ _) fun b => keeps_ite (keeps_pure P _) (keeps_pure P _)

theorem keeps_finish (env : IoEnv) (r : Except ErrorKind Unit) : Keeps J (Core.finish env r) := by
  have P := hI.toPiecewise
  rcases r with e | ⟨⟨⟩⟩
  · exact keeps_bind P (keeps_writeError hI _ _ _) fun _ => keeps_pure P _
  · exact keeps_pure P _

/-- Every callback has the property. -/
theorem keeps_step (rt : Rt) (c : Core.Call) (st : State) : Keeps J (Core.step rt c st) := by
  have P := hI.toPiecewise
  cases c with
  | «open» a => exact keeps_coreOpen hI rt a st
  | close =>
    refine keeps_bind P ?_ fun _ => keeps_pure P _
    unfold Core.close
    cases st.plugin with
    | none => exact keeps_bind P (keeps_pure P _) fun _ => keeps_pure P _
    | some p =>
      refine keeps_bind P ?_ fun _ => keeps_pure P _
      unfold Pair.close
      split
      · exact keeps_pure P _
      · exact keeps_bind P (keeps_socketClose hI _) fun _ => keeps_socketClose hI _
  | showVersion =>
    refine keeps_bind P (keeps_bind P (keeps_catchUnwind ?_) ?_) fun _ => keeps_pure P _
    · exact keeps_bind P (keeps_ofOption P _) fun env =>
        keeps_bind P (keeps_writePieces hI _ _) fun _ => keeps_pure P _
    · rintro (_ | ⟨⟨⟩⟩) <;> exact keeps_pure P _
  | log f buf =>
    refine keeps_bind P (keeps_bind P (keeps_catchUnwind ?_) fun _ => keeps_pure P _) fun _ => keeps_pure P _
    refine keeps_bind P (keeps_ofOption P _) fun env => keeps_bind P (keeps_ofOption P _) fun p =>
      keeps_ite (keeps_pure P _) (keeps_bind P ?_ fun _ => keeps_finish hI _ _)
    cases f
    · exact keeps_pure P _
    · exact keeps_logOutput hI _ _
    · exact keeps_bind P (keeps_ofOption P _) fun _ => keeps_ite (keeps_pure P _) (keeps_pure P _)
    · exact keeps_logOutput hI _ _
    · exact keeps_logOutput hI _ _
  | changeWinsize l c =>
    refine keeps_bind P (keeps_bind P (keeps_catchUnwind ?_) fun _ => keeps_pure P _) fun _ => keeps_pure P _
    exact keeps_bind P (keeps_ofOption P _) fun env => keeps_bind P (keeps_ofOption P _) fun p =>
      keeps_bind P (keeps_logOutput hI _ _) fun _ => keeps_finish hI _ _

/-- Every sequence of callbacks has the property. -/
theorem keeps_run (rt : Rt) : ∀ cs st, Keeps J (Core.run rt cs st)
  | [], _ => keeps_pure hI.toPiecewise _
  | c :: cs, st => keeps_bind hI.toPiecewise (keeps_step hI rt c st) fun _ =>
      keeps_bind hI.toPiecewise (keeps_run rt cs _) fun _ => keeps_pure hI.toPiecewise _

end
end SudoPair
