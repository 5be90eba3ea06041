import Verif.Spec.Abi
import Verif.Props.Ffi
import Verif.Props.Table
import Verif.Props.Framework
/-
C72: a call from C reaches the callback's code with every argument in its place.
-/
namespace SudoPair
open Spec Framework Table Ffi

theorem pointerSize_pos (m : Mem) : 0 < pointerSize m := by rcases width_cases m with ⟨h, _⟩ | ⟨h, _⟩ <;> omega

theorem pointerSize_dvd (m : Mem) : pointerSize m ∣ 8 := by
  rcases width_cases m with ⟨h, _⟩ | ⟨h, _⟩ <;> rw [h] <;> decide

theorem int_low {m : Mem} (w : Abi.Word m) : Abi.int w = Header.low w := by
  apply BitVec.eq_of_toNat_eq
  simp [Abi.int, Header.low]

theorem ptr_ne_zero {m : Mem} (w : Abi.Word m) : (Abi.ptr w ≠ 0) = (w ≠ 0) := by
  simp [Abi.ptr, ← BitVec.toNat_inj]

theorem abi_open {σ ε : Type} (P : Plugin σ ε) (rt : Rt) (m : Mem) (r : RawArgs) (a : OpenArgs) (st : Slots σ)
    (h : Represents m r a) : Abi.open P rt m r st = some (Framework.open P rt a st) := by
  unfold Abi.open
  rw [C60_env rt m r a h]
  simp only [Option.bind_eq_bind, Option.bind_some, Option.pure_def, h.hasPrintf]
  rfl

theorem abi_log {σ ε : Type} (P : Plugin σ ε) (m : Mem) (f : Facility) (buf : Nat) (len : BitVec 32) (b : Bytes)
    (st : Slots σ) (h : BufferAt m buf len b) : Abi.log P m f buf len st = some (Framework.log P f b st) := by
  obtain ⟨_ | env, _ | p⟩ := st
  · rfl
  · rfl
  · rfl
  · simp only [Abi.log, Framework.log, ofOption_some', pure_bind]
    by_cases hh : (!Core.hint env.commandInfo f && !P.ignoreHints) = true
    · simp only [hh, if_true, M.catchUnwind_pure]
      rfl
    · have hh : (!Core.hint env.commandInfo f && !P.ignoreHints) = false := by simpa using hh
      simp [hh, (C60_buffer ..).2 h]

/-- **C72.**  Whatever the plugin and whatever callback sudo makes: sudo puts the arguments in the order of the
header's prototype, jumps to the function it finds in the slot of the callback, and what runs is the callback's code
on these very arguments. -/
theorem C72_call {σ ε : Type} (P : Plugin σ ε) (rt : Rt) (m : Mem) (val : String → Abi.Word m) (c : Framework.Call)
    (st : Slots σ) (h : Header.Means m val c) :
    ∃ k f, Header.ioMembers[k]? = some (Header.member c) ∧
      Header.At (layout (pointerSize m) 0 ioTable.cells) (Header.slot (pointerSize m) k) (.fn f) ∧
      Abi.enter P rt m f ((Header.params c).map val) st = some (Framework.step P rt c st) := by
  rw [ioTable_cells]
  have key := fun k o h => at_slot (φ := CoreFn) (w := pointerSize m) (pointerSize_pos m) (pointerSize_dvd m) 2 65553 ioFns k o h
  cases c with
  | «open» a =>
    refine ⟨0, .open, rfl, key 0 _ rfl, ?_⟩
    refine (abi_open P rt m _ a st ?_)
    have h : Represents m _ a := h
    simp only [Abi.openParams, Abi.newParams, int_low, ptr_ne_zero]
    exact h
  | close x e =>
    obtain ⟨rfl, rfl⟩ := h
    refine ⟨1, .close, rfl, key 1 _ rfl, ?_⟩
    simp [Header.params, Abi.enter, int_low]
  | showVersion v =>
    have h : _ = v := h
    subst h
    refine ⟨2, .showVersion, rfl, key 2 _ rfl, ?_⟩
    simp [Header.params, Abi.enter, int_low]
  | log f b =>
    have h : BufferAt m _ _ b := h
    rw [← int_low] at h
    have hl := fun f => abi_log P m f _ _ b st h
    cases f with
    | ttyin => exact ⟨3, .logTtyin, rfl, key 3 _ rfl, by simp [Header.params, Abi.enter, Abi.ptr, hl, Framework.step]⟩
    | ttyout => exact ⟨4, .logTtyout, rfl, key 4 _ rfl, by simp [Header.params, Abi.enter, Abi.ptr, hl, Framework.step]⟩
    | stdin => exact ⟨5, .logStdin, rfl, key 5 _ rfl, by simp [Header.params, Abi.enter, Abi.ptr, hl, Framework.step]⟩
    | stdout => exact ⟨6, .logStdout, rfl, key 6 _ rfl, by simp [Header.params, Abi.enter, Abi.ptr, hl, Framework.step]⟩
    | stderr => exact ⟨7, .logStderr, rfl, key 7 _ rfl, by simp [Header.params, Abi.enter, Abi.ptr, hl, Framework.step]⟩
  | changeWinsize l c =>
    obtain ⟨rfl, rfl⟩ := h
    refine ⟨10, .changeWinsize, rfl, key 10 _ rfl, ?_⟩
    simp [Header.params, Abi.enter, int_low]

/-- **C72.**  For sudo_pair: the same calls run the code that the other claims are about. -/
theorem C72_sudo_pair (rt : Rt) (m : Mem) (val : String → Abi.Word m) (c : Framework.Call) (st : State)
    (h : Header.Means m val c) :
    ∃ k f run, Header.ioMembers[k]? = some (Header.member c) ∧
      Header.At (layout (pointerSize m) 0 ioTable.cells) (Header.slot (pointerSize m) k) (.fn f) ∧
      Abi.enter (sudoPair rt) rt m f ((Header.params c).map val) (slots st) = some run ∧
      ∀ s, run s = match Core.step rt (call c) st s with
        | (.ok x, h, s')   => (.ok (x.1, slots x.2), h, s')
        | (.panic, h, s')  => (.panic, h, s')
        | (.killed, h, s') => (.killed, h, s') := by
  obtain ⟨k, f, h1, h2, h3⟩ := C72_call (sudoPair rt) rt m val c (slots st) h
  exact ⟨k, f, _, h1, h2, h3, fun s => C58_instance rt c st s⟩

/-- **C72.**  The upper halves of integer arguments do not matter. -/
theorem C72_upper {m : Mem} {w w' : Abi.Word m} (h : w.toNat % 2 ^ 32 = w'.toNat % 2 ^ 32) : Abi.int w = Abi.int w' := by
  rw [int_low, int_low, Header.low, Header.low, h]

/-- **C72.**  The same for the example plugin; its `check` reports its reason where the caller's `errstr` points. -/
theorem C72_deny (m : Mem) (val : String → Abi.Word m) (c : DenyEverything.Call) (h : Header.MeansApproval val c) :
    ∃ k f, Header.approvalMembers[k]? = some (Header.approvalMember c) ∧
      Header.At (layout (pointerSize m) 0 denyTable.cells) (Header.slot (pointerSize m) k) (.fn f) ∧
      Abi.deny f ((Header.approvalParams c).map val) =
        some (c, if c = .check then some (val "errstr").toNat else none) := by
  rw [denyTable_cells]
  have key := fun k o h => at_slot (φ := DenyFn) (w := pointerSize m) (pointerSize_pos m) (pointerSize_dvd m) 4 65553 denyFns k o h
  cases c with
  | «open» v conv print =>
    obtain ⟨rfl, h1, h2⟩ := h
    refine ⟨0, .open, rfl, key 0 _ rfl, ?_⟩
    have h1 : decide (val "conversation" ≠ 0) = conv := by cases conv <;> simpa using h1
    have h2 : decide (val "sudo_printf" ≠ 0) = print := by cases print <;> simpa using h2
    simp only [Header.approvalParams, List.map_cons, List.map_nil, Abi.deny, int_low, ptr_ne_zero, h1, h2]
    rfl
  | check => exact ⟨2, .check, rfl, key 2 _ rfl, rfl⟩
  | showVersion => exact ⟨3, .showVersion, rfl, key 3 _ rfl, rfl⟩

/-- Its hypothesis can be met. -/
example : Header.MeansApproval (n := 64) (fun | "version" => 0xffffffff00010011 | "sudo_printf" => 4096 | _ => 0)
    (.open 0x10011 false true) := ⟨by decide, by decide, by decide⟩

/-- The vectors of the sample arguments. -/
def sampleVecs : List (List Bytes) :=
  [sampleArgs.argv, vec sampleArgs.settings, vec sampleArgs.userInfo, vec sampleArgs.commandInfo,
   vec sampleArgs.userEnv, vec sampleArgs.pluginOptions]

/-- Where they are, with rubbish in the upper halves of the integers. -/
def sampleVal (n : Nat) : String → BitVec (8 * n)
  | "version" => (0xdeadbeef#32 ++ sampleArgs.version).setWidth _
  | "sudo_printf" => 4096
  | "argc" => (0xdeadbeef#32 ++ BitVec.ofNat 32 sampleArgs.argv.length).setWidth _
  | "argv" => BitVec.ofNat _ (n * 1)
  | "settings" => BitVec.ofNat _ (n * (1 + 64 * 1))
  | "user_info" => BitVec.ofNat _ (n * (1 + 64 * 2))
  | "command_info" => BitVec.ofNat _ (n * (1 + 64 * 3))
  | "user_env" => BitVec.ofNat _ (n * (1 + 64 * 4))
  | _ => 0

/-- The hypothesis of C72_call holds of the sample session, on 64-bit and on 32-bit targets. -/
example (big : Bool) : ∃ val : String → Abi.Word (memOf big 64 64 sampleVecs),
    Header.Means (memOf big 64 64 sampleVecs) val (.open sampleArgs) := by
  have hv : ∀ w v, w = (if big then 8 else 4) → v < 6 →
      StringsAt (memOf big 64 64 sampleVecs) (w * (1 + 64 * v)) (sampleVecs.getD v []) ∧
      (memOf big 64 64 sampleVecs).ptr (w * (1 + 64 * v) + w * (sampleVecs.getD v []).length) = some 0 := by
    intro w v hw hv
    have h : ∀ v : Fin 6, (sampleVecs.getD v []).length < 64 ∧ (∀ s ∈ sampleVecs.getD v [], s.length < 64) ∧
        (∀ s ∈ sampleVecs.getD v [], 0 ∉ s) := by decide +kernel
    obtain ⟨h1, h2, h3⟩ := h ⟨v, hv⟩
    exact memOf_vector hw rfl h1 h2 h3 (fun s hs => by have := h2 s hs; split <;> omega)
  cases big with
  | true =>
    have hv := fun v => hv 8 v rfl
    exact ⟨sampleVal 8, by decide +kernel, by decide +kernel, ⟨(hv 0 (by omega)).1, by decide +kernel⟩, hv 1 (by omega),
      hv 2 (by omega), hv 3 (by omega), hv 4 (by omega), rfl⟩
  | false =>
    have hv := fun v => hv 4 v rfl
    exact ⟨sampleVal 4, by decide +kernel, by decide +kernel, ⟨(hv 0 (by omega)).1, by decide +kernel⟩, hv 1 (by omega),
      hv 2 (by omega), hv 3 (by omega), hv 4 (by omega), rfl⟩

/-- And of other callbacks: a negative exit status, for example. -/
example : Header.Means (n := 64) ⟨true, fun _ => none, fun _ => none⟩
      (fun | "exit_status" => 0x00000000ffffffff | _ => 2) (.close (-1) 2) ∧
    Header.Means (n := 32) ⟨false, fun _ => none, fun _ => none⟩ (fun | "line" => 24 | _ => 80)
      (.changeWinsize 24 80) := by
  exact ⟨⟨by decide, by decide⟩, by decide, by decide⟩

end SudoPair
