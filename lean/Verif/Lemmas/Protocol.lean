import Verif.Lemmas.Lawful
import Verif.Lemmas.Prog
import Verif.Spec.Protocol
/-
Effectful code that behaves like a state machine.
-/
namespace SudoPair
open Spec

variable {α β γ ρ : Type}

/-! ### Contexts in which the next interaction of the code put in is the next interaction of the whole -/

/-- Code around a hole: what the hole does first, the whole does first. -/
def Around (C : M α → M β) : Prop :=
  ∀ (c : Sys) (f : Resp c → M α), C (M.sys c >>= f) = M.sys c >>= fun r => C (f r)

theorem around_id : Around (fun m : M α => m) := fun _ _ => rfl

theorem around_comp {C : M β → M γ} {D : M α → M β} (hC : Around C) (hD : Around D) :
    Around (fun m => C (D m)) := fun c f => by show C (D _) = _; rw [hD, hC]

theorem around_bind (k : α → M β) : Around (fun m : M α => m >>= k) := fun _ _ => bind_assoc _ _ _

theorem around_catch : Around (M.catchUnwind (α := α)) := by
  intro c f
  funext s
  cases s with
  | nil => rfl
  | cons a s =>
    simp only [M.catchUnwind, M.bind_def, M.sys]
    rcases f (a c) s with ⟨a | _ | _, h, s'⟩ <;> rfl

theorem around_unwind (cl : M Unit) : Around (fun m : M α => M.onUnwind m cl) := by
  intro c f
  funext s
  cases s with
  | nil => rfl
  | cons a s =>
    simp only [M.onUnwind, M.bind_def, M.sys]
    rcases f (a c) s with ⟨a | _ | _, h, s'⟩
    · rfl
    · simp only
      rcases cl s' with ⟨a | _ | _, h', s''⟩ <;> rfl
    · rfl

theorem panic_bind (k : α → M β) : ((M.panic : M α) >>= k) = M.panic := by
  funext s; rfl

theorem catch_panic : M.catchUnwind (M.panic : M α) = pure none := rfl

theorem catch_pure (a : α) : M.catchUnwind (pure a : M α) = pure (some a) := rfl

theorem unwind_pure (a : α) (cl : M Unit) : M.onUnwind (pure a) cl = pure a := rfl

/-! ### Behaving like a machine -/

variable {S : Session} {fin : Verdict → ρ}

/-- On schedules of at most `n` answers, `m` behaves like the machine in phase `x`. -/
def Sim (S : Session) (fin : Verdict → ρ) (n : Nat) (m : M ρ) (x : Step) : Prop :=
  ∀ s : Sched, s.length ≤ n → m s = withResult fin (runMachine S.move x s)

theorem sim_over {n : Nat} {v : Verdict} : Sim S fin n (pure (fin v)) (.over v) := by
  intro s _
  cases s <;> rfl

theorem sim_call {n : Nat} {c : Sys} {f : Resp c → M ρ} {x : Step} {k : Resp c → Step}
    (hx : S.move x = .call c k) (h : ∀ m, m < n → ∀ r, Sim S fin m (f r) (k r)) :
    Sim S fin n (M.sys c >>= f) x := by
  intro s hs
  cases s with
  | nil => simp [runMachine, hx, M.bind_def, M.sys, withResult]
  | cons a s =>
    have hs' : s.length < n := hs
    have := h s.length hs' (a c) s (Nat.le_refl _)
    simp only [runMachine, hx, M.bind_def, M.sys]
    rw [this]
    rcases runMachine S.move (k (a c)) s with ⟨a | _ | _, h, s'⟩ <;> rfl

/-- A call in a context. -/
theorem Around.call {C : M α → M ρ} (hC : Around C) {n : Nat} {c : Sys} {f : Resp c → M α} {x : Step}
    {k : Resp c → Step} (hx : S.move x = .call c k) (h : ∀ m, m < n → ∀ r, Sim S fin m (C (f r)) (k r)) :
    Sim S fin n (C (M.sys c >>= f)) x := by
  rw [hC]; exact sim_call hx h

theorem Around.call' {c : Sys} {C : M (Resp c) → M ρ} (hC : Around C) {n : Nat} {x : Step}
    {k : Resp c → Step} (hx : S.move x = .call c k) (h : ∀ m, m < n → ∀ r, Sim S fin m (C (pure r)) (k r)) :
    Sim S fin n (C (M.sys c)) x := by
  have := hC.call (S := S) (fin := fin) (n := n) (f := pure) hx h
  rwa [bind_pure] at this

/-- The `write_all` loop: one round is one or several calls after which the machine is where `deliver`
says. -/
theorem sim_writeAll {w : Bytes → M WriteRes} (hw : ∀ b, Prog (w b)) (hl : Lively w) {C : M Bool → M ρ}
    {again : Bytes → Step} {done failed absurd : Step} {good : Bytes → Prop}
    (hgood : ∀ buf n, good buf → good (buf.drop n))
    (round : ∀ n buf, buf ≠ [] → good buf →
      (∀ m, m < n → ∀ r, Sim S fin m (C (writeRound (writeAll w) buf r)) (deliver again done failed absurd buf r)) →
      Sim S fin n (C (w buf >>= writeRound (writeAll w) buf)) (again buf))
    {N : Nat}
    (hdone : ∀ n, n ≤ N → Sim S fin n (C (pure true)) done)
    (hfailed : ∀ n, n ≤ N → Sim S fin n (C (pure false)) failed)
    (habsurd : ∀ n, n ≤ N → Sim S fin n (C M.panic) absurd) :
    ∀ n, n ≤ N → ∀ buf, good buf → Sim S fin n (C (writeAll w buf)) (if buf = [] then done else again buf) := by
  intro n
  induction n using Nat.strongRecOn with
  | ind n ih =>
    intro hN buf hg
    cases buf with
    | nil => rw [if_pos rfl, writeAll_nil]; exact hdone n hN
    | cons b bs =>
      rw [if_neg (by simp), Prog.writeAll_eq hw hl]
      refine round n (b :: bs) (by simp) hg fun m hm r => ?_
      match r with
      | .fail => exact hfailed m (by omega)
      | .wrote 0 => exact hfailed m (by omega)
      | .intr =>
        have := ih m hm (by omega) (b :: bs) hg
        rwa [if_neg (by simp)] at this
      | .wrote (k + 1) =>
        simp only [writeRound, deliver]
        rw [if_neg (show ¬ (k + 1 = 0) by omega)]
        by_cases hk : k + 1 ≤ (b :: bs).length
        · rw [if_pos hk]
          have := ih m hm (by omega) ((b :: bs).drop (k + 1)) (hgood _ _ hg)
          by_cases hk' : k + 1 < (b :: bs).length
          · rw [if_pos hk']
            rwa [if_neg (by intro h; have := congrArg List.length h; simp at this; simp at hk'; omega)] at this
          · have he : k + 1 = (b :: bs).length := by omega
            rw [if_neg hk', if_pos he]
            rwa [if_pos (by rw [he, List.drop_length])] at this
        · rw [if_neg hk, if_neg (show ¬ k + 1 < (b :: bs).length by omega),
            if_neg (show ¬ k + 1 = (b :: bs).length by omega)]
          exact habsurd m (by omega)

/-! ### Printing -/

theorem prog_printWrite (pf : PrintFacility) (b : Bytes) : Prog (pf.write b) := by
  unfold PrintFacility.write
  exact prog_ite (.pure _) (prog_ite (.pure _) (.sys _))

theorem print_writeAll_fail {pf : PrintFacility} {buf : Bytes} (hne : buf ≠ [])
    (h : ¬ (pf.hasPrintf = true ∧ (0 : UInt8) ∉ buf)) : pf.writeAll buf = pure false := by
  have hw : pf.write buf = pure .fail := by
    unfold PrintFacility.write
    by_cases hp : pf.hasPrintf = true
    · rw [if_neg (by simp [hp]), if_pos (by simpa [hp] using h)]
    · rw [if_pos (by simpa using hp)]
  cases buf with
  | nil => exact absurd rfl hne
  | cons b bs =>
    unfold PrintFacility.writeAll
    rw [Prog.writeAll_eq (prog_printWrite pf) (lively_print pf), hw, pure_bind]
    rfl

theorem print_write {pf : PrintFacility} {buf : Bytes} (h : pf.hasPrintf = true ∧ (0 : UInt8) ∉ buf) :
    pf.write buf = M.sys (.printf pf.level buf) := by
  unfold PrintFacility.write
  rw [if_neg (by simp [h.1]), if_neg h.2]

/-- Printing one text, in a context. -/
theorem sim_print {pf : PrintFacility} {C : M Bool → M ρ} (hC : Around C) {again : Bytes → Step}
    {done failed absurd : Step}
    (hm : ∀ buf, S.move (again buf) = .call (.printf pf.level buf) (deliver again done failed absurd buf))
    {N : Nat}
    (hdone : ∀ n, n ≤ N → Sim S fin n (C (pure true)) done)
    (hfailed : ∀ n, n ≤ N → Sim S fin n (C (pure false)) failed)
    (habsurd : ∀ n, n ≤ N → Sim S fin n (C M.panic) absurd) (buf : Bytes) :
    Sim S fin N (C (pf.writeAll buf))
      (if buf = [] then done else if pf.hasPrintf = true ∧ (0 : UInt8) ∉ buf then again buf else failed) := by
  by_cases hb : buf = []
  · subst hb
    rw [if_pos rfl]
    unfold PrintFacility.writeAll
    rw [writeAll_nil]
    exact hdone N (Nat.le_refl _)
  · rw [if_neg hb]
    by_cases hp : pf.hasPrintf = true ∧ (0 : UInt8) ∉ buf
    · rw [if_pos hp]
      have := sim_writeAll (S := S) (fin := fin) (w := pf.write) (prog_printWrite pf) (lively_print pf) (C := C)
        (again := again) (done := done) (failed := failed) (absurd := absurd)
        (good := fun b => pf.hasPrintf = true ∧ (0 : UInt8) ∉ b)
        (fun b n hg => ⟨hg.1, fun h => hg.2 (List.mem_of_mem_drop h)⟩)
        (fun n b _ hg h => by
          rw [print_write hg]
          exact hC.call (hm b) h)
        hdone hfailed habsurd N (Nat.le_refl _) buf hp
      rwa [if_neg hb] at this
    · rw [if_neg hp, print_writeAll_fail hb hp]
      exact hfailed N (Nat.le_refl _)

/-- Printing texts one after the other. -/
theorem sim_says {pf : PrintFacility} {C : M Bool → M ρ} (hC : Around C) {v : Verdict} {N : Nat}
    (hv : ∀ n, n ≤ N → ∀ b, Sim S fin n (C (pure b)) (.over v))
    (habsurd : ∀ n, n ≤ N → Sim S fin n (C M.panic) (.over .refused)) :
    ∀ texts n, n ≤ N →
      Sim S fin n (C (Core.writePieces pf texts)) (Step.says pf.hasPrintf pf.level v texts) := by
  intro texts
  induction texts with
  | nil => exact fun n hn => hv n hn true
  | cons t more ih =>
    intro n hn
    by_cases ht : t = []
    · subst ht
      have h1 : Core.writePieces pf ([] :: more) = Core.writePieces pf more := by
        unfold Core.writePieces PrintFacility.writeAll
        rw [writeAll_nil, pure_bind]
        cases more <;> rfl
      rw [h1]
      show Sim S fin n _ (Step.says _ _ _ ([] :: more))
      rw [Step.says, if_pos rfl]
      exact ih n hn
    · by_cases hp : pf.hasPrintf = true ∧ (0 : UInt8) ∉ t
      · have key := sim_print (S := S) (fin := fin) (pf := pf)
          (C := fun m => C (m >>= fun ok => if ok = true then Core.writePieces pf more else pure false))
          (around_comp hC (around_bind _)) (again := fun t => .say pf.level t more v)
          (done := .says true pf.level v more) (failed := .over v) (absurd := .over .refused)
          (fun buf => rfl) (N := n)
          (fun m hm => by
            have := ih m (by omega)
            rw [hp.1] at this
            simpa using this)
          (fun m hm => by simpa using hv m (by omega) false)
          (fun m hm => by simpa [panic_bind] using habsurd m (by omega)) t
        rw [if_neg ht, if_pos hp] at key
        rw [Step.says, if_neg ht, if_pos hp]
        exact key
      · rw [Step.says, if_neg ht, if_neg hp]
        unfold Core.writePieces
        rw [print_writeAll_fail ht hp, pure_bind]
        exact hv n hn false

/-- An error message is four texts. -/
theorem writeError_eq (pf : PrintFacility) (ht : pf.tag = b! "sudo_pair: ") (msg : Bytes) :
    pf.writeError msg none = Core.writePieces pf (errorTexts msg) := by
  have h1 : ∀ m : M Bool, (do if ← m then pure true else pure false) = m := by
    intro m
    have : (fun ok : Bool => if ok = true then (pure true : M Bool) else pure false) = pure := by
      funext b; cases b <;> rfl
    rw [this, bind_pure]
  unfold PrintFacility.writeError errorTexts
  simp only [Core.writePieces, PrintFacility.writeLine, ht, h1]
  refine congrArg _ (funext fun ok => ?_)
  cases ok
  · rfl
  · simp only [if_true, bind_assoc]
    refine congrArg _ (funext fun ok => ?_)
    cases ok
    · rfl
    · simp only [if_true, bind_assoc]
      refine congrArg _ (funext fun ok => ?_)
      cases ok
      · rfl
      · simp only [if_true]
        exact h1 _

/-- Refusing with a message. -/
theorem sim_refuse {C : M Bool → M ρ} (hC : Around C) {can : Bool} {N : Nat}
    (hv : ∀ n, n ≤ N → ∀ b, Sim S fin n (C (pure b)) (.over .refused))
    (habsurd : ∀ n, n ≤ N → Sim S fin n (C M.panic) (.over .refused)) (msg : Bytes) :
    Sim S fin N (C ((PrintFacility.stderr can).writeError msg none)) (.refuse can msg) := by
  rw [writeError_eq _ rfl]
  exact sim_says (pf := PrintFacility.stderr can) hC hv habsurd _ N (Nat.le_refl _)

/-! ### On the connection -/

theorem write_bind (fd : Nat) (buf : Bytes) (k : WriteRes → M α) :
    (Socket.write fd buf >>= k) = M.sys .sigGet >>= fun (o : Option SigAction) =>
      match o with
      | none => k .fail
      | some old => M.sys (.sigSet { old with flags := old.flags &&& ~~~ SA_RESTART }) >>= fun (ok : Bool) =>
        if ok = true then M.sys (.sockWrite fd buf) >>= fun (r : WriteRes) =>
          M.sys (.sigSet old) >>= fun (ok : Bool) => if ok = true then k r else k .fail
        else k .fail := by
  unfold Socket.write ctrlCAborts
  simp only [bind_assoc]
  refine congrArg _ (funext fun o => ?_)
  cases o with
  | none => simp only [pure_bind]
  | some old =>
    simp only [bind_assoc]
    refine congrArg _ (funext fun ok => ?_)
    cases ok
    · simp
    · simp only [if_true, bind_assoc]
      refine congrArg _ (funext fun r => congrArg _ (funext fun ok => ?_))
      cases ok <;> simp

theorem read_bind (fd len : Nat) (k : ReadRes len → M α) :
    (Socket.read fd len >>= k) = M.sys .sigGet >>= fun (o : Option SigAction) =>
      match o with
      | none => k .fail
      | some old => M.sys (.sigSet { old with flags := old.flags &&& ~~~ SA_RESTART }) >>= fun (ok : Bool) =>
        if ok = true then M.sys (.sockRead fd len) >>= fun (r : ReadRes len) =>
          M.sys (.sigSet old) >>= fun (ok : Bool) => if ok = true then k r else k .fail
        else k .fail := by
  unfold Socket.read ctrlCAborts
  simp only [bind_assoc]
  refine congrArg _ (funext fun o => ?_)
  cases o with
  | none => simp only [pure_bind]
  | some old =>
    simp only [bind_assoc]
    refine congrArg _ (funext fun ok => ?_)
    cases ok
    · simp
    · simp only [if_true, bind_assoc]
      refine congrArg _ (funext fun r => congrArg _ (funext fun ok => ?_))
      cases ok <;> simp

theorem flush_bind (k : Bool → M α) :
    (Socket.flush >>= k) = M.sys .sigGet >>= fun (o : Option SigAction) =>
      match o with
      | none => k false
      | some old => M.sys (.sigSet { old with flags := old.flags &&& ~~~ SA_RESTART }) >>= fun (ok : Bool) =>
        if ok = true then M.sys (.sigSet old) >>= fun (ok : Bool) => if ok = true then k true else k false
        else k false := by
  unfold Socket.flush ctrlCAborts
  simp only [bind_assoc]
  refine congrArg _ (funext fun o => ?_)
  cases o with
  | none => simp only [pure_bind]
  | some old =>
    simp only [bind_assoc]
    refine congrArg _ (funext fun ok => ?_)
    cases ok
    · simp
    · simp only [if_true, bind_assoc, pure_bind]
      refine congrArg _ (funext fun ok => ?_)
      cases ok <;> simp

/-- The errand of delivering something: where it leads. -/
structure Delivers (S : Session) (fd : Nat) (e : Bytes → Errand) (done failed absurd : Step) : Prop where
  after : ∀ rest r, S.after fd (e rest) (.wrote r) =
    deliver (fun rest => .guard fd (e rest)) done failed absurd rest r
  failed : ∀ rest, S.after fd (e rest) .failed = failed
  arm : ∀ rest old, S.move (.arm fd (e rest) old) =
    .call (.sigSet { old with flags := old.flags &&& ~~~ 0x10000000#32 }) fun ok =>
      if ok then .act fd (e rest) old else S.after fd (e rest) .failed
  act : ∀ rest old, S.move (.act fd (e rest) old) =
    .call (.sockWrite fd rest) fun r => .disarm fd (e rest) old (.wrote r)

theorem sim_deliver {C : M Bool → M ρ} (hC : Around C) {fd : Nat} {e : Bytes → Errand}
    {done failed absurd : Step} (he : Delivers S fd e done failed absurd) {N : Nat}
    (hdone : ∀ n, n ≤ N → Sim S fin n (C (pure true)) done)
    (hfailed : ∀ n, n ≤ N → Sim S fin n (C (pure false)) failed)
    (habsurd : ∀ n, n ≤ N → Sim S fin n (C M.panic) absurd) (buf : Bytes) :
    Sim S fin N (C (Socket.writeAll fd buf)) (if buf = [] then done else .guard fd (e buf)) := by
  refine sim_writeAll (again := fun b => .guard fd (e b)) (good := fun _ => True) (prog_write fd) (lively_write fd) (fun _ _ _ => trivial) ?_
    hdone hfailed habsurd N (Nat.le_refl _) buf trivial
  intro n buf _ _ h
  rw [write_bind]
  have hf : ∀ m, m < n → Sim S fin m (C (writeRound (writeAll (Socket.write fd)) buf .fail)) failed :=
    fun m hm => h m hm .fail
  refine hC.call (x := .guard fd (e buf)) (k := fun r =>
    match r with | none => S.after fd (e buf) .failed | some old => .arm fd (e buf) old) rfl ?_
  intro m hm o
  cases o with
  | none => simp only [he.failed]; exact hf m hm
  | some old =>
    refine hC.call (he.arm buf old) ?_
    intro m' hm' ok
    cases ok
    · simp only [Bool.false_eq_true, if_false, he.failed]; exact hf m' (by omega)
    · simp only [if_true]
      refine hC.call (he.act buf old) ?_
      intro m2 hm2 r
      refine hC.call (x := .disarm fd (e buf) old (.wrote r))
        (k := fun ok => S.after fd (e buf) (if ok then .wrote r else .failed)) rfl ?_
      intro m3 hm3 ok
      cases ok
      · simp only [Bool.false_eq_true, if_false, he.failed]; exact hf m3 (by omega)
      · simp only [if_true, he.after]; exact h m3 (by omega) r

end SudoPair
