import Verif.Spec.Table
/-
C65: the exported tables are laid out as the header says, with every callback in its own slot.
-/
namespace SudoPair
open Table

theorem roundUp_of_dvd {n a : Nat} (h : a ∣ n) (ha : 0 < a) : roundUp n a = n := by
  obtain ⟨k, rfl⟩ := h
  unfold roundUp
  have : (a * k + a - 1) / a = k := by
    rw [show a * k + a - 1 = (a - 1) + a * k by omega, Nat.add_mul_div_left _ _ ha,
      Nat.div_eq_of_lt (by omega), Nat.zero_add]
  rw [this, Nat.mul_comm]

theorem ofOption_size {φ : Type} (w : Nat) (o : Option φ) : (Cell.ofOption o).size w = w := by
  cases o <;> rfl

theorem roundUp_least {n a : Nat} (ha : 0 < a) :
    n ≤ roundUp n a ∧ a ∣ roundUp n a ∧ ∀ m, n ≤ m → a ∣ m → roundUp n a ≤ m := by
  unfold roundUp
  refine ⟨?_, ⟨_, Nat.mul_comm _ _⟩, ?_⟩
  · have h1 := Nat.div_add_mod (n + a - 1) a
    have h2 := Nat.mod_lt (n + a - 1) ha
    rw [Nat.mul_comm]
    omega
  · rintro m hm ⟨k, rfl⟩
    rw [Nat.mul_comm a k]
    refine Nat.mul_le_mul_right _ ?_
    rw [← Nat.lt_succ_iff, Nat.div_lt_iff_lt_mul ha, Nat.succ_mul, Nat.mul_comm k a]
    omega

/-- **C65.**  `layout` is C's rule, for structures of any members: it lists the members in their order, each at the first
suitable offset, and that is the only such list. -/
theorem C65_layout {φ : Type} {w : Nat} (hw : 0 < w) : ∀ (off : Nat) (cs : List (Cell φ)) (t : List (Nat × Cell φ)),
    layout w off cs = t ↔ t.map Prod.snd = cs ∧ Header.Laid w off t
  | off, [], t => by
    constructor
    · rintro rfl; exact ⟨rfl, .nil⟩
    · rintro ⟨h, _⟩; simp only [List.map_eq_nil_iff] at h; subst h; rfl
  | off, c :: cs, t => by
    have hs : 0 < c.size w := by cases c <;> simp [Cell.size, hw]
    obtain ⟨r1, r2, r3⟩ := roundUp_least (n := off) hs
    constructor
    · rintro rfl
      obtain ⟨h1, h2⟩ := (C65_layout hw (roundUp off (c.size w) + c.size w) cs _).1 rfl
      exact ⟨by simp [layout, h1], .cons r1 r2 r3 h2⟩
    · rintro ⟨h1, h2⟩
      cases h2 with
      | nil => simp at h1
      | @cons _ o d t h3 h4 h5 h6 =>
        simp only [List.map_cons, List.cons.injEq] at h1
        obtain ⟨rfl, h1⟩ := h1
        obtain rfl : roundUp off (d.size w) = o := Nat.le_antisymm (r3 o h3 h4) (h5 _ r1 r2)
        rw [layout, (C65_layout hw _ cs t).2 ⟨h1, h6⟩]

/-- Non-vacuity: a pointer behind an integer is padded. -/
example : layout (φ := Unit) 8 0 [.uint 1, .null, .uint 2, .uint 3] = [(0, .uint 1), (8, .null), (16, .uint 2), (20, .uint 3)] ∧
    layout (φ := Unit) 8 0 [.uint 1, .null, .uint 2, .null] = [(0, .uint 1), (8, .null), (16, .uint 2), (24, .null)] := by decide

/-- Pointers after an aligned offset follow one another without padding. -/
theorem layout_pointers {φ : Type} {w : Nat} (hw : 0 < w) (os : List (Option φ)) (k : Nat) (hd : w ∣ 8) :
    layout w (Header.slot w k) (os.map .ofOption) =
      (List.range' k os.length).zipWith (fun i o => (Header.slot w i, Cell.ofOption o)) os := by
  induction os generalizing k with
  | nil => rfl
  | cons o os ih =>
    have ha : roundUp (Header.slot w k) w = Header.slot w k :=
      roundUp_of_dvd (Nat.dvd_add hd (Nat.dvd_mul_left _ _)) hw
    have hn : Header.slot w k + w = Header.slot w (k + 1) := by
      unfold Header.slot; rw [Nat.succ_mul]; omega
    simp only [List.map_cons, layout, ofOption_size, ha, hn, ih, List.length_cons, List.range'_succ,
      List.zipWith_cons_cons]

/-- The two integers take the first eight bytes. -/
theorem layout_table {φ : Type} {w : Nat} (hw : 0 < w) (hd : w ∣ 8) (t v : BitVec 32) (os : List (Option φ)) :
    layout w 0 (.uint t :: .uint v :: os.map .ofOption) =
      (0, .uint t) :: (4, .uint v) ::
        (List.range' 0 os.length).zipWith (fun i o => (Header.slot w i, Cell.ofOption o)) os := by
  have h := layout_pointers hw os 0 hd
  have h8 : Header.slot w 0 = 8 := by unfold Header.slot; omega
  rw [h8] at h
  simp only [layout, Cell.size, roundUp]
  rw [← h]

theorem slot_inj {w i j : Nat} (hw : 0 < w) (h : Header.slot w i = Header.slot w j) : i = j := by
  unfold Header.slot at h
  exact Nat.eq_of_mul_eq_mul_right hw (by omega)

theorem mem_zip {φ : Type} {w : Nat} (os : List (Option φ)) (k : Nat) (x : Nat × Cell φ) :
    x ∈ (List.range' k os.length).zipWith (fun i o => (Header.slot w i, Cell.ofOption o)) os ↔
      ∃ i o, os[i]? = some o ∧ x = (Header.slot w (k + i), .ofOption o) := by
  induction os generalizing k with
  | nil => simp
  | cons o os ih =>
    simp only [List.length_cons, List.range'_succ, List.zipWith_cons_cons, List.mem_cons, ih]
    constructor
    · rintro (rfl | ⟨i, o', h, rfl⟩)
      · exact ⟨0, o, rfl, rfl⟩
      · exact ⟨i + 1, o', h, by rw [Nat.add_assoc, Nat.add_comm 1 i]⟩
    · rintro ⟨i, o', h, rfl⟩
      cases i with
      | zero => left; simp at h; subst h; rfl
      | succ i => right; exact ⟨i, o', h, by rw [Nat.add_assoc, Nat.add_comm 1 i]⟩

/-- The `k`-th function member lies in the `k`-th slot, and only it does. -/
theorem at_slot {φ : Type} {w : Nat} (hw : 0 < w) (hd : w ∣ 8) (t v : BitVec 32) (os : List (Option φ)) (k : Nat)
    (o : Option φ) (h : os[k]? = some o) :
    Header.At (layout w 0 (.uint t :: .uint v :: os.map .ofOption)) (Header.slot w k) (.ofOption o) := by
  rw [layout_table hw hd]
  have h8 : 8 ≤ Header.slot w k := by unfold Header.slot; omega
  refine ⟨?_, fun c' hc => ?_⟩
  · exact List.mem_cons_of_mem _ (List.mem_cons_of_mem _ ((mem_zip _ _ _).2 ⟨k, o, h, by rw [Nat.zero_add]⟩))
  · rcases List.mem_cons.1 hc with hc | hc
    · injection hc with h1 h2; omega
    rcases List.mem_cons.1 hc with hc | hc
    · injection hc with h1 h2; omega
    · obtain ⟨i, o', hi, he⟩ := (mem_zip _ _ _).1 hc
      injection he with h1 h2
      rw [Nat.zero_add] at h1
      rw [← slot_inj hw h1, h] at hi
      injection hi with hi
      rw [h2, hi]

theorem at_head {φ : Type} {w : Nat} (hw : 0 < w) (hd : w ∣ 8) (t v : BitVec 32) (os : List (Option φ)) :
    Header.At (layout w 0 (.uint t :: .uint v :: os.map .ofOption)) 0 (.uint t) ∧
      Header.At (layout w 0 (.uint t :: .uint v :: os.map .ofOption)) 4 (.uint v) := by
  rw [layout_table hw hd]
  have key : ∀ n c', n < 8 → (n, c') ∉ (List.range' 0 os.length).zipWith
      (fun i o => (Header.slot w i, Cell.ofOption o)) os := by
    intro n c' hn hm
    obtain ⟨i, o', hi, he⟩ := (mem_zip _ _ _).1 hm
    injection he with h1 h2
    unfold Header.slot at h1
    omega
  refine ⟨⟨.head _, fun c' hc => ?_⟩, ⟨.tail _ (.head _), fun c' hc => ?_⟩⟩
  · rcases List.mem_cons.1 hc with hc | hc
    · injection hc
    rcases List.mem_cons.1 hc with hc | hc
    · injection hc with h1 h2; omega
    · exact absurd hc (key _ _ (by omega))
  · rcases List.mem_cons.1 hc with hc | hc
    · injection hc with h1 h2; omega
    rcases List.mem_cons.1 hc with hc | hc
    · injection hc
    · exact absurd hc (key _ _ (by omega))

/-- The function members of the table of an I/O plugin. -/
def ioFns : List (Option CoreFn) :=
  [some .open, some .close, some .showVersion, some .logTtyin, some .logTtyout, some .logStdin,
   some .logStdout, some .logStderr, none, none, some .changeWinsize, none, none]

theorem ioTable_cells : ioTable.cells = .uint 2 :: .uint 65553 :: ioFns.map .ofOption := by decide

/-- C65: whatever the plugin and whatever callback sudo makes, the function it finds in the slot the header
assigns to that callback is the one that runs the callback's code.  `w` is the size of a pointer. -/
theorem C65_dispatch {σ ε : Type} {w : Nat} (hw : w = 4 ∨ w = 8) (P : Framework.Plugin σ ε) (rt : Rt)
    (c : Framework.Call) (st : Framework.Slots σ) :
    ∃ k f, Header.ioMembers[k]? = some (Header.member c) ∧
      Header.At (layout w 0 ioTable.cells) (Header.slot w k) (.fn f) ∧
      invoke P rt f (Header.args c) st = some (Framework.step P rt c st) := by
  have hw0 : 0 < w := by omega
  have hd : w ∣ 8 := by rcases hw with rfl | rfl <;> decide
  rw [ioTable_cells]
  have key := fun k o h => at_slot (φ := CoreFn) hw0 hd 2 65553 ioFns k o h
  cases c with
  | «open» a => exact ⟨0, .open, rfl, key 0 _ rfl, rfl⟩
  | close x e => exact ⟨1, .close, rfl, key 1 _ rfl, rfl⟩
  | showVersion v => exact ⟨2, .showVersion, rfl, key 2 _ rfl, rfl⟩
  | log f b =>
    cases f with
    | ttyin => exact ⟨3, .logTtyin, rfl, key 3 _ rfl, rfl⟩
    | ttyout => exact ⟨4, .logTtyout, rfl, key 4 _ rfl, rfl⟩
    | stdin => exact ⟨5, .logStdin, rfl, key 5 _ rfl, rfl⟩
    | stdout => exact ⟨6, .logStdout, rfl, key 6 _ rfl, rfl⟩
    | stderr => exact ⟨7, .logStderr, rfl, key 7 _ rfl, rfl⟩
  | changeWinsize l c => exact ⟨10, .changeWinsize, rfl, key 10 _ rfl, rfl⟩

/-- C65: sudo sees a plugin of type 2 (I/O) for API version 1.17, and no function for hooks, suspension or
event allocation. -/
theorem C65_rest {w : Nat} (hw : w = 4 ∨ w = 8) :
    Header.At (layout w 0 ioTable.cells) 0 (.uint 2) ∧
    (∃ v, Header.At (layout w 0 ioTable.cells) 4 (.uint v) ∧ v.toNat = 1 * 65536 + 17) ∧
    ∀ k name, Header.ioMembers[k]? = some name →
      name ∈ ["register_hooks", "deregister_hooks", "log_suspend", "event_alloc"] →
      Header.At (layout w 0 ioTable.cells) (Header.slot w k) .null := by
  have hw0 : 0 < w := by omega
  have hd : w ∣ 8 := by rcases hw with rfl | rfl <;> decide
  rw [ioTable_cells]
  have hh := at_head (φ := CoreFn) hw0 hd 2 65553 ioFns
  refine ⟨hh.1, ⟨_, hh.2, rfl⟩, fun k name hk hn => ?_⟩
  have : k = 8 ∨ k = 9 ∨ k = 11 ∨ k = 12 := by
    rcases k with _|_|_|_|_|_|_|_|_|_|_|_|_|k
    all_goals first
      | (injection hk with hk; subst hk; simp at hn; done)
      | (simp; done)
      | exact nomatch hk
  rcases this with rfl | rfl | rfl | rfl <;> exact at_slot hw0 hd 2 65553 ioFns _ none rfl

/-- C65: the two integers and the thirteen functions are all there is; they tile the structure. -/
theorem C65_size {w : Nat} (hw : w = 4 ∨ w = 8) :
    (layout w 0 ioTable.cells).map Prod.fst =
      0 :: 4 :: (List.range Header.ioMembers.length).map (Header.slot w) := by
  rcases hw with rfl | rfl <;> decide

/-- The function members of `deny_everything`. -/
def denyFns : List (Option DenyFn) := [some .open, none, some .check, some .showVersion]

theorem denyTable_cells : denyTable.cells = .uint 4 :: .uint 65553 :: denyFns.map .ofOption := by decide

/-- The function of the example plugin that runs each of its callbacks. -/
def denyFn : DenyEverything.Call → DenyFn
  | .open _ _ _  => .open
  | .check       => .check
  | .showVersion => .showVersion

/-- C65: the same for the example plugin: type 4 (approval), version 1.17, no `close`. -/
theorem C65_deny {w : Nat} (hw : w = 4 ∨ w = 8) :
    Header.At (layout w 0 denyTable.cells) 0 (.uint 4) ∧
    Header.At (layout w 0 denyTable.cells) 4 (.uint (BitVec.ofNat 32 (1 * 65536 + 17))) ∧
    (∀ c, ∃ k, Header.approvalMembers[k]? = some (Header.approvalMember c) ∧
      Header.At (layout w 0 denyTable.cells) (Header.slot w k) (.fn (denyFn c))) ∧
    Header.approvalMembers[1]? = some "close" ∧ Header.At (layout w 0 denyTable.cells) (Header.slot w 1) .null := by
  have hw0 : 0 < w := by omega
  have hd : w ∣ 8 := by rcases hw with rfl | rfl <;> decide
  rw [denyTable_cells]
  have hh := at_head (φ := DenyFn) hw0 hd 4 65553 denyFns
  have key := fun k o h => at_slot (φ := DenyFn) hw0 hd 4 65553 denyFns k o h
  refine ⟨hh.1, hh.2, fun c => ?_, rfl, key 1 _ rfl⟩
  cases c with
  | «open» v c p => exact ⟨0, rfl, key 0 _ rfl⟩
  | check => exact ⟨2, rfl, key 2 _ rfl⟩
  | showVersion => exact ⟨3, rfl, key 3 _ rfl⟩

/-- On x86-64 `change_winsize` is at byte 88 and the structure ends at 112, as the generated tests say. -/
example : ioTable.cells.length = 15 ∧ (88, Cell.fn CoreFn.changeWinsize) ∈ layout 8 0 ioTable.cells ∧
    (104, Cell.null) ∈ layout 8 0 ioTable.cells := by decide
/-- On x86 it is at byte 48. -/
example : (48, Cell.fn CoreFn.changeWinsize) ∈ layout 4 0 ioTable.cells := by decide

theorem finds {φ : Type} {w : Nat} (hw : w = 4 ∨ w = 8) (t v : BitVec 32) (ms : List (String × Option φ)) :
    Header.Finds w (layout w 0 (.uint t :: .uint v :: (ms.map Prod.snd).map .ofOption)) t v ms := by
  have hw0 : 0 < w := by omega
  have hd : w ∣ 8 := by rcases hw with rfl | rfl <;> decide
  have hh := at_head (φ := φ) hw0 hd t v (ms.map Prod.snd)
  refine ⟨hh.1, hh.2, fun k name f hk => ?_, ?_⟩
  · have := at_slot (φ := φ) hw0 hd t v (ms.map Prod.snd) k f (by simp [hk])
    cases f <;> exact this
  · rw [layout_table hw0 hd]
    simp
    omega

/-- C71: whatever the functions in it, a table of any of the four kinds is laid out as the header says. -/
theorem C71_layout {φ : Type} {w : Nat} (hw : w = 4 ∨ w = 8) :
    (∀ t : PolicyPlugin φ, Header.Finds w (layout w 0 t.cells) t.type_ t.version (Header.policyMembers t)) ∧
    (∀ t : Table.IoPlugin φ, Header.Finds w (layout w 0 t.cells) t.type_ t.version (Header.ioFields t)) ∧
    (∀ t : AuditPlugin φ, Header.Finds w (layout w 0 t.cells) t.type_ t.version (Header.auditMembers t)) ∧
    (∀ t : ApprovalPlugin φ, Header.Finds w (layout w 0 t.cells) t.type_ t.version (Header.approvalFields t)) :=
  ⟨fun t => finds hw t.type_ t.version (Header.policyMembers t), fun t => finds hw t.type_ t.version (Header.ioFields t),
   fun t => finds hw t.type_ t.version (Header.auditMembers t), fun t => finds hw t.type_ t.version (Header.approvalFields t)⟩

/-- C71: the empty tables have the type of their kind, version 1.17, and no functions. -/
theorem C71_empty {φ : Type} :
    ((PolicyPlugin.empty : PolicyPlugin φ).type_, (Table.IoPlugin.empty : Table.IoPlugin φ).type_,
      (AuditPlugin.empty : AuditPlugin φ).type_, (ApprovalPlugin.empty : ApprovalPlugin φ).type_) = (1, 2, 3, 4) ∧
    (∀ v ∈ [(PolicyPlugin.empty : PolicyPlugin φ).version, (Table.IoPlugin.empty : Table.IoPlugin φ).version,
      (AuditPlugin.empty : AuditPlugin φ).version, (ApprovalPlugin.empty : ApprovalPlugin φ).version],
      v.toNat = 1 * 65536 + 17) ∧
    (∀ m ∈ Header.policyMembers (PolicyPlugin.empty : PolicyPlugin φ), m.2 = none) ∧
    (∀ m ∈ Header.ioFields (Table.IoPlugin.empty : Table.IoPlugin φ), m.2 = none) ∧
    (∀ m ∈ Header.auditMembers (AuditPlugin.empty : AuditPlugin φ), m.2 = none) ∧
    (∀ m ∈ Header.approvalFields (ApprovalPlugin.empty : ApprovalPlugin φ), m.2 = none) := by
  refine ⟨rfl, ?_, ?_, ?_, ?_, ?_⟩
  · intro v hv
    simp only [List.mem_cons, List.not_mem_nil, or_false] at hv
    rcases hv with rfl | rfl | rfl | rfl <;> rfl
  · simp [Header.policyMembers, PolicyPlugin.empty]
  · simp [Header.ioFields, Table.IoPlugin.empty]
  · simp [Header.auditMembers, AuditPlugin.empty]
  · simp [Header.approvalFields, ApprovalPlugin.empty]

/-- A policy plugin with one callback: on x86-64 `check_policy` is at byte 32, and the structure has 96 bytes; an
audit plugin has 80. -/
example : (32, Cell.fn ()) ∈ layout 8 0 { (PolicyPlugin.empty : PolicyPlugin Unit) with checkPolicy := some () }.cells ∧
    (88, Cell.null) ∈ layout 8 0 (PolicyPlugin.empty : PolicyPlugin Unit).cells ∧
    (72, Cell.null) ∈ layout 8 0 (AuditPlugin.empty : AuditPlugin Unit).cells := by decide

end SudoPair
