import Verif.Props.Path
import Verif.Props.Exempt
import Verif.Props.Version
import Verif.Props.Text
import Verif.Props.Print
import Verif.Spec.Extras
/-
C48, C53, C56, C57: the approval script, the example plugin, and the version callback.
-/
namespace SudoPair
open Spec Approve

theorem mem_cmd {ans c k x} : x ∈ cmd ans c k ↔ x = c ∨ ∃ out, ans c = some out ∧ x ∈ k out := by
  unfold cmd
  rw [List.mem_cons]
  cases ans c <;> simp

theorem reads_decimals {arith} (ha : ReadsDecimals arith) {vars i} (hi : InRange i) :
    arith vars (decInt i) = ([], some (i, vars)) := by
  have := ha.2 vars i hi
  rwa [decimalInt_fun] at this

theorem runBy_iff {uid : Nat} {vars : Vars} {ans : Answers} : RunBy uid vars ans ↔
    ((vars (b! "SUDO_UID")).getD [] = [] ∧ ∀ out, ans .idU = some out → out = decInt uid) ∨
    vars (b! "SUDO_UID") = some (decInt uid) := by
  rw [RunBy, decimalInt_fun]

theorem assigns_iff {arith v name text i w} : Assigns arith v name text i w ↔
    ∃ v', (arith v text).2 = some (i, v') ∧ w = v'.set name (decInt i) := by
  unfold Assigns
  rw [decimalInt_fun]
  exact ⟨fun ⟨v', h1, h2⟩ => ⟨v', h1, funext h2⟩, fun ⟨v', h1, h2⟩ => ⟨v', h1, fun n => by rw [h2]; rfl⟩⟩

theorem mem_assign {arith v name text k x} : x ∈ assign arith v name text k ↔
    (∃ t ∈ (arith v text).1, x = .code t) ∨ ∃ i w, Assigns arith v name text i w ∧ x ∈ k i w := by
  unfold assign
  rw [List.mem_append, List.mem_map]
  simp only [assigns_iff]
  cases (arith v text).2 with
  | none => simp [eq_comm]
  | some r =>
    obtain ⟨i, v'⟩ := r
    simp only [Option.some.injEq, Prod.mk.injEq]
    constructor
    · rintro (⟨t, h, rfl⟩ | h)
      · exact .inl ⟨t, h, rfl⟩
      · exact .inr ⟨i, _, ⟨v', ⟨rfl, rfl⟩, rfl⟩, h⟩
    · rintro (⟨t, h, rfl⟩ | ⟨_, _, ⟨_, ⟨rfl, rfl⟩, rfl⟩, h⟩)
      · exact .inl ⟨t, h, rfl⟩
      · exact .inr h

theorem assigns_inRange {arith v name text i w} (ha : ReadsDecimals arith) (h : Assigns arith v name text i w) : InRange i := by
  obtain ⟨v', h, _⟩ := h
  exact ha.1 _ _ _ _ h

/-- What a decimal number assigns. -/
theorem assigns_decimal {arith v name k i w} (ha : ReadsDecimals arith) (hk : InRange k) :
    Assigns arith v name (decInt k) i w ↔ i = k ∧ w = v.set name (decInt k) := by
  rw [assigns_iff, reads_decimals ha hk]
  constructor
  · rintro ⟨v', h, rfl⟩
    simp only [Option.some.injEq, Prod.mk.injEq] at h
    obtain ⟨rfl, rfl⟩ := h
    exact ⟨rfl, rfl⟩
  · rintro ⟨rfl, rfl⟩
    exact ⟨v, rfl, rfl⟩

/-- The script's own variables are not `SUDO_UID`. -/
theorem set_own (v : Vars) (x : Bytes) : v.set (b! "uid") x (b! "SUDO_UID") = v (b! "SUDO_UID") ∧
    v.set (b! "pid") x (b! "SUDO_UID") = v (b! "SUDO_UID") := by
  unfold Vars.set
  exact ⟨if_neg (by decide), if_neg (by decide)⟩

theorem assigns_spares {arith v name text i w} (hn : b! "SUDO_UID" ≠ name) (hs : SparesSudoUid arith text)
    (h : Assigns arith v name text i w) : w (b! "SUDO_UID") = v (b! "SUDO_UID") := by
  obtain ⟨v', h1, h2⟩ := h
  rw [h2, if_neg hn]
  exact hs _ _ _ h1

/-- The two arguments of the script: their values, and the variables after both assignments. -/
def Evaluates (arith : Arith) (vars : Vars) (args : List Bytes) (uid pid : Int) (after : Vars) : Prop :=
  ∃ uidArg pidArg between, args = [uidArg, pidArg] ∧ Assigns arith vars (b! "uid") uidArg uid between ∧
    Assigns arith between (b! "pid") pidArg pid after

theorem Evaluates.spares {arith v args uid pid w} (h : Evaluates arith v args uid pid w)
    (hs : ∀ a ∈ args, SparesSudoUid arith a) : w (b! "SUDO_UID") = v (b! "SUDO_UID") := by
  obtain ⟨a, b, u, rfl, h1, h2⟩ := h
  rw [assigns_spares (by decide) (hs b (by simp)) h2, assigns_spares (by decide) (hs a (by simp)) h1]

theorem evaluates_decimal {arith v i j uid pid w} (ha : ReadsDecimals arith) (hi : InRange i) (hj : InRange j)
    (h : Evaluates arith v [decInt i, decInt j] uid pid w) :
    uid = i ∧ pid = j ∧ w (b! "SUDO_UID") = v (b! "SUDO_UID") := by
  obtain ⟨a, b, u, h0, h1, h2⟩ := h
  simp only [List.cons.injEq, and_true] at h0
  obtain ⟨rfl, rfl⟩ := h0
  obtain ⟨rfl, rfl⟩ := (assigns_decimal ha hi).1 h1
  obtain ⟨rfl, rfl⟩ := (assigns_decimal ha hj).1 h2
  exact ⟨rfl, rfl, by rw [(set_own _ _).2, (set_own _ _).1]⟩

/-- Commands that only look at things or print a message. -/
def looks : Cmd → Bool
  | .code _ => false | .testW _ => false | .socat _ => false | .sudoUser .. => false | .sudoGroup .. => false
  | .sttyGet => false | .sttyRaw => false | .sttyIntr => false | .clear => false | .sttyRestore => false
  | .sayMode => false
  | _ => true

/-- The text taken for the real user. -/
def RuidText (sudoUid : Option Bytes) (ans : Answers) (text : Bytes) : Prop :=
  (sudoUid.getD [] = [] ∧ ans .idU = some text) ∨ (sudoUid.getD [] ≠ [] ∧ sudoUid = some text)

theorem mem_realUid {ans su k x} (hx : x ∈ realUid ans su k) : x = .idU ∨ ∃ text, RuidText su ans text ∧ x ∈ k text := by
  unfold realUid at hx
  split at hx
  · rename_i hs
    rcases mem_cmd.1 hx with rfl | ⟨out, h3, hx⟩
    · exact Or.inl rfl
    · exact Or.inr ⟨out, Or.inl ⟨hs, h3⟩, hx⟩
  · rename_i hs
    refine Or.inr ⟨su.getD [], Or.inr ⟨hs, ?_⟩, hx⟩
    cases su with
    | none => exact absurd rfl hs
    | some v => rfl

/-- The last part of the script, for the session `uid`, `pid`. -/
def Acts (ans : Answers) (path : Bytes) (uid pid : Int) (x : Cmd) : Prop :=
  x = .testW path ∨ (x = .sayMode) ∨ (∃ user, x = .sudoUser user uid pid) ∨ (∃ group, x = .sudoGroup group uid pid) ∨
    ((ans (.testW path)).isSome ∧ x ∈ Approve.pair ans path)

theorem main_mem {arith ans su dir uidArg pidArg x} (hx : x ∈ Approve.main arith ans su dir uidArg pidArg) :
    looks x = true ∨ (∃ t, x = .code t) ∨ ∃ uid pid ruid text v v', Evaluates arith su [uidArg, pidArg] uid pid v ∧
      RuidText (v (b! "SUDO_UID")) ans text ∧ Assigns arith v (b! "ruid") text ruid v' ∧ uid ≠ ruid ∧
      Acts ans (socket dir uid pid) uid pid x := by
  unfold Approve.main at hx
  rcases mem_assign.1 hx with ⟨t, _, rfl⟩ | ⟨uid, v1, h1, hx⟩
  · exact Or.inr (Or.inl ⟨_, rfl⟩)
  rcases mem_assign.1 hx with ⟨t, _, rfl⟩ | ⟨pid, v2, h2, hx⟩
  · exact Or.inr (Or.inl ⟨_, rfl⟩)
  rcases mem_realUid hx with rfl | ⟨text, h3, hx⟩
  · exact Or.inl rfl
  rcases mem_assign.1 hx with ⟨t, _, rfl⟩ | ⟨ruid, v3, h4, hx⟩
  · exact Or.inr (Or.inl ⟨_, rfl⟩)
  rcases mem_cmd.1 hx with rfl | ⟨out, _, hx⟩
  · exact Or.inl rfl
  rcases mem_assign.1 hx with ⟨t, _, rfl⟩ | ⟨_, _, _, hx⟩
  · exact Or.inr (Or.inl ⟨_, rfl⟩)
  rcases mem_cmd.1 hx with rfl | ⟨out, _, hx⟩
  · exact Or.inl rfl
  rcases mem_assign.1 hx with ⟨t, _, rfl⟩ | ⟨_, _, _, hx⟩
  · exact Or.inr (Or.inl ⟨_, rfl⟩)
  rcases mem_cmd.1 hx with rfl | ⟨out, _, hx⟩
  · exact Or.inl rfl
  rcases mem_cmd.1 hx with rfl | ⟨out, _, hx⟩
  · exact Or.inl rfl
  rcases mem_cmd.1 hx with rfl | ⟨out, _, hx⟩
  · exact Or.inl rfl
  split at hx
  · rw [List.mem_singleton] at hx; subst hx; exact Or.inl rfl
  · rename_i hne
    refine Or.inr (Or.inr ⟨uid, pid, ruid, text, v2, v3, ⟨_, _, v1, rfl, h1, h2⟩, h3, h4, hne, ?_⟩)
    rcases List.mem_cons.1 hx with rfl | hx
    · exact Or.inl rfl
    · refine Or.inr ?_
      split at hx
      · rename_i hw; exact Or.inr (Or.inr (Or.inr ⟨hw, hx⟩))
      · split at hx
        · cases hx
        · split at hx
          · rw [List.mem_singleton] at hx; exact Or.inr (Or.inl ⟨_, hx⟩)
          · split at hx
            · rw [List.mem_singleton] at hx; exact Or.inr (Or.inr (Or.inl ⟨_, hx⟩))
            · rw [List.mem_singleton] at hx; exact Or.inl hx

theorem connects_pair {ans path x p} (hx : x ∈ Approve.pair ans path) (hc : connectsTo x = some p) : p = path := by
  unfold Approve.pair at hx
  simp only [List.cons_append, List.mem_cons, List.mem_append, mem_cmd, List.not_mem_nil, or_false] at hx
  rcases hx with rfl | (rfl | ⟨_, _, rfl | ⟨_, _, rfl | ⟨_, _, rfl⟩⟩⟩) | rfl <;> simp [connectsTo] at hc
  exact hc.symm

theorem not_sudo_pair {ans path x} (hx : x ∈ Approve.pair ans path) {u uid pid} : x ≠ .sudoUser u uid pid ∧ x ≠ .sudoGroup u uid pid := by
  unfold Approve.pair at hx
  simp only [List.cons_append, List.mem_cons, List.mem_append, mem_cmd, List.not_mem_nil, or_false] at hx
  rcases hx with rfl | (rfl | ⟨_, _, rfl | ⟨_, _, rfl | ⟨_, _, rfl⟩⟩⟩) | rfl <;> simp

/-- What a command of the script that connects or starts the script again tells about its arguments. -/
theorem script_mem {arith ans su args x} (hx : x ∈ script arith ans su args)
    (hc : (∃ p, connectsTo x = some p) ∨ ∃ u i j, x = .sudoUser u i j ∨ x = .sudoGroup u i j) :
    ∃ uid pid ruid text v v', Evaluates arith su args uid pid v ∧
      RuidText (v (b! "SUDO_UID")) ans text ∧ Assigns arith v (b! "ruid") text ruid v' ∧ uid ≠ ruid ∧
      (∀ p, connectsTo x = some p → p = socket socketDir uid pid) ∧
      ∀ u i j, x = .sudoUser u i j ∨ x = .sudoGroup u i j → i = uid ∧ j = pid := by
  unfold script at hx
  split at hx
  · rename_i uidArg pidArg
    rcases main_mem hx with h | ⟨t, rfl⟩ | ⟨uid, pid, ruid, text, v, v', h1, h3, h4, h5, h6⟩
    · exfalso
      rcases hc with ⟨p, hp⟩ | ⟨u, i, j, rfl | rfl⟩
      · cases x <;> simp [connectsTo, looks] at hp h
      · cases h
      · cases h
    · rcases hc with ⟨p, hp⟩ | ⟨u, i, j, h | h⟩ <;> simp [connectsTo] at *
    · refine ⟨uid, pid, ruid, text, v, v', h1, h3, h4, h5, ?_, ?_⟩
      · intro p hp
        rcases h6 with rfl | rfl | ⟨_, rfl⟩ | ⟨_, rfl⟩ | ⟨_, h6⟩
        · cases hp
        · cases hp
        · cases hp
        · cases hp
        · exact connects_pair h6 hp
      · intro u i j h
        rcases h6 with rfl | rfl | ⟨_, rfl⟩ | ⟨_, rfl⟩ | ⟨_, h6⟩
        · simp at h
        · simp at h
        · simp at h; exact ⟨h.2.1.symm, h.2.2.symm⟩
        · simp at h; exact ⟨h.2.1.symm, h.2.2.symm⟩
        · have := not_sudo_pair h6 (u := u) (uid := i) (pid := j)
          rcases h with h | h
          · exact absurd h this.1
          · exact absurd h this.2
  · rw [List.mem_singleton] at hx; subst hx
    rcases hc with ⟨p, hp⟩ | ⟨u, i, j, h | h⟩
    · cases hp
    · cases h
    · cases h

/-- The script only ever connects to sockets of the uid that it was given. -/
theorem approval_uid {arith su ans args t} (ha : ReadsDecimals arith) (h : Approval arith su ans args t) :
    ∀ x ∈ t, ∀ path, connectsTo x = some path → ∃ uid pid v, Evaluates arith su args uid pid v ∧
      path = socket socketDir uid pid := by
  induction h with
  | last =>
    intro x hx path hp
    obtain ⟨uid, pid, _, _, v, _, h1, _, _, _, h4, _⟩ := script_mem hx (Or.inl ⟨path, hp⟩)
    exact ⟨uid, pid, v, h1, h4 path hp⟩
  | @again su ans args user i j su' ans' t hs _ ih =>
    intro x hx path hp
    rcases List.mem_append.1 hx with hx | hx
    · obtain ⟨uid, pid, _, _, v, _, h1, _, _, _, h4, _⟩ := script_mem hx (Or.inl ⟨path, hp⟩)
      exact ⟨uid, pid, v, h1, h4 path hp⟩
    · obtain ⟨uid', pid', v', k1, k2⟩ := ih x hx path hp
      rw [decimalInt_fun] at k1
      have : ∃ y ∈ script arith ans su args, y = .sudoUser user i j ∨ y = .sudoGroup user i j := by
        rcases hs with h | h
        · exact ⟨_, h, Or.inl rfl⟩
        · exact ⟨_, h, Or.inr rfl⟩
      obtain ⟨y, hy, hy'⟩ := this
      obtain ⟨uid, pid, _, _, v, _, h1, _, _, _, _, h5⟩ := script_mem hy (Or.inr ⟨user, i, j, hy'⟩)
      obtain ⟨rfl, rfl⟩ := h5 _ _ _ hy'
      obtain ⟨_, _, _, _, r1, r2⟩ := id h1
      obtain ⟨rfl, rfl, _⟩ := evaluates_decimal ha (assigns_inRange ha r1) (assigns_inRange ha r2) k1
      exact ⟨_, _, v, h1, k2⟩

theorem socket_injective {uid pid uid' pid'} (h : socket socketDir uid pid = socket socketDir uid' pid') : uid = uid' ∧ pid = pid' := by
  unfold socket at h
  simp only [List.append_assoc, List.append_cancel_left_eq] at h
  have hno : ∀ i, (46 : UInt8) ∉ decInt i := by
    intro i
    cases i with
    | ofNat n => exact decNat_no (by unfold IsDigit; decide) n
    | negSucc n =>
      rw [decInt, List.mem_cons, not_or]
      exact ⟨by decide, decNat_no (by unfold IsDigit; decide) _⟩
  obtain ⟨h1, h2⟩ := append_dot_inj (hno uid) (hno uid') h
  exact ⟨decInt_injective h1, decInt_injective ((List.append_left_inj _).1 h2)⟩

/-- The full C48: the user with this uid, whatever the environment, never connects to one of his own
sessions by means of the script.  See `C48_counterexample`. -/
def C48Full : Prop := ∀ (arith : Arith) su ans args t (uid : Nat), ReadsDecimals arith → uid < 2 ^ 32 →
  (∀ out, ans .idU = some out → out = decimalInt uid) → Approval arith su ans args t →
  (∀ c, .code c ∉ t) ∧ ∀ x ∈ t, ∀ path pid, connectsTo x = some path → path ≠ b! "/var/run/sudo_pair/" ++ socketName uid pid

theorem ruidText_own {su : Vars} {ans text} {uid : Nat} (hr : RunBy uid su ans) (ht : RuidText (su (b! "SUDO_UID")) ans text) : text = decInt uid := by
  rcases runBy_iff.1 hr with ⟨k1, k2⟩ | k1
  · rcases ht with ⟨_, k3⟩ | ⟨k3, _⟩
    · exact k2 _ k3
    · exact absurd k1 k3
  · rcases ht with ⟨k3, _⟩ | ⟨_, k3⟩
    · rw [k1] at k3
      exact absurd k3 (decNat_ne_nil uid)
    · rw [k1] at k3; cases k3; rfl

/-- C48: if `SUDO_UID` was not made up, and evaluating the arguments does not change it, neither the script nor the
runs of it that it starts connect to a session of the user who started it. -/
theorem C48_own_partial {arith : Arith} {su ans args t} {uid : Nat} (ha : ReadsDecimals arith) (hu : uid < 2 ^ 32)
    (hr : RunBy uid su ans) (hs : ∀ a ∈ args, SparesSudoUid arith a) (h : Approval arith su ans args t) :
    ∀ x ∈ t, ∀ path pid, connectsTo x = some path → path ≠ b! "/var/run/sudo_pair/" ++ socketName uid pid := by
  intro x hx path pid hp heq
  have hsock : path = socket socketDir uid pid := by
    rw [heq, socketName_eq]; rfl
  obtain ⟨uid', pid', v, h1, h4⟩ := approval_uid ha h x hx path hp
  rw [h4] at hsock
  obtain ⟨rfl, rfl⟩ := socket_injective hsock
  have hin : InRange uid := by unfold InRange; omega
  have first : ∀ y ∈ script arith ans su args, ((∃ p, connectsTo y = some p) ∨ ∃ u i j, y = .sudoUser u i j ∨ y = .sudoGroup u i j) →
      False := by
    intro y hy hc
    obtain ⟨u', p', ru, text, w, w', k1, k4, k5, k6, _, _⟩ := script_mem hy hc
    rw [k1.spares hs] at k4
    rw [ruidText_own hr k4] at k5
    obtain ⟨rfl, _⟩ := (assigns_decimal ha hin).1 k5
    obtain ⟨_, _, _, e, h2, _⟩ := h1
    obtain ⟨_, _, _, e', k2, _⟩ := k1
    rw [e] at e'
    simp only [List.cons.injEq, and_true] at e'
    obtain ⟨rfl, rfl⟩ := e'
    obtain ⟨_, h2, _⟩ := h2
    obtain ⟨_, k2, _⟩ := k2
    rw [h2] at k2
    simp only [Option.some.injEq, Prod.mk.injEq] at k2
    exact k6 k2.1.symm
  cases h with
  | last => exact first x hx (Or.inl ⟨path, hp⟩)
  | again hm _ =>
    rcases hm with hm | hm
    · exact first _ hm (Or.inr ⟨_, _, _, Or.inl rfl⟩)
    · exact first _ hm (Or.inr ⟨_, _, _, Or.inr rfl⟩)

/-- Numbers leave `SUDO_UID` alone. -/
theorem spares_decimal {arith : Arith} (ha : ReadsDecimals arith) {i : Int} (hi : InRange i) :
    SparesSudoUid arith (decInt i) := by
  intro v k w h
  rw [reads_decimals ha hi] at h
  simp only [Option.some.injEq, Prod.mk.injEq] at h
  rw [h.2]

/-- C48: the script executes nothing hidden in its arguments if they are numbers. -/
theorem C48_no_code {arith : Arith} {su ans} {uid : Nat} {i j : Int} (ha : ReadsDecimals arith) (hu : uid < 2 ^ 32)
    (hr : RunBy uid su ans) (hi : InRange i) (hj : InRange j)
    (h1 : ∀ p out, ans (.statUid p) = some out → ∃ k, InRange k ∧ out = decimalInt k)
    (h2 : ∀ p out, ans (.statGid p) = some out → ∃ k, InRange k ∧ out = decimalInt k) (c : Bytes) :
    .code c ∉ script arith ans su [decimalInt i, decimalInt j] := by
  rw [decimalInt_fun] at h1 h2 ⊢
  intro hx
  have no : ∀ {k v n f}, InRange k → .code c ∈ assign arith v n (decInt k) f → .code c ∈ f k (v.set n (decInt k)) := by
    intro k v n f hk hx
    rcases mem_assign.1 hx with ⟨t, h, _⟩ | ⟨i, w, h, hx⟩
    · rw [reads_decimals ha hk] at h; cases h
    · obtain ⟨rfl, rfl⟩ := (assigns_decimal ha hk).1 h; exact hx
  have run : ∀ {d f}, .code c ∈ cmd ans d f → (∀ t, d ≠ .code t) → ∃ out, ans d = some out ∧ .code c ∈ f out := by
    intro d f hx hd
    rcases mem_cmd.1 hx with rfl | h
    · exact absurd rfl (hd c)
    · exact h
  unfold script Approve.main at hx
  replace hx := no hi hx
  replace hx := no hj hx
  obtain h | ⟨text, ht, hx⟩ := mem_realUid hx
  · cases h
  rw [(set_own _ _).2, (set_own _ _).1] at ht
  rw [ruidText_own hr ht] at hx
  replace hx := no (k := uid) (by unfold InRange; omega) hx
  obtain ⟨out, ho, hx⟩ := run hx (by simp)
  obtain ⟨k, hk, rfl⟩ := h1 _ _ ho
  replace hx := no hk hx
  obtain ⟨out, ho, hx⟩ := run hx (by simp)
  obtain ⟨k, hk, rfl⟩ := h2 _ _ ho
  replace hx := no hk hx
  obtain ⟨_, _, hx⟩ := run hx (by simp)
  obtain ⟨_, _, hx⟩ := run hx (by simp)
  obtain ⟨mode, _, hx⟩ := run hx (by simp)
  unfold Approve.pair at hx
  revert hx
  cases octal mode with
  | none =>
    dsimp only
    repeat' split
    all_goals simp [mem_cmd]
  | some m =>
    dsimp only
    repeat' split
    all_goals simp [mem_cmd]

/-- An evaluator that knows decimal numbers; texts of the form `a[$(command)]`, for which bash runs
the command and uses its output as an index; and those of the form `SUDO_UID=number,number`. -/
def sampleArith : Arith := fun vars text =>
  match parseInt 64 text with
  | some i => if decInt i = text then ([], some (i, vars)) else ([], none)
  | none   =>
    if text.take 4 = b! "a[$(" ∧ text.drop (text.length - 2) = b! ")]" then
      ([(text.drop 4).dropLast.dropLast], some (0, vars))
    else if text.take 9 = b! "SUDO_UID=" then
      match parseInt 64 ((text.drop 9).takeWhile (· ≠ 44)), parseInt 64 (((text.drop 9).dropWhile (· ≠ 44)).drop 1) with
      | some i, some j => ([], some (j, vars.set (b! "SUDO_UID") (decInt i)))
      | _, _           => ([], none)
    else ([], none)

/-- An environment with `SUDO_UID` at most. -/
def onlySudoUid (value : Option Bytes) : Vars := fun name => if name = b! "SUDO_UID" then value else none

theorem sampleArith_reads : ReadsDecimals sampleArith := by
  have range : ∀ text i, parseInt 64 text = some i → InRange i := by
    intro text i h
    have := (C30_signed 64 text i).1 h
    exact ⟨this.1, this.2.1⟩
  constructor
  · intro v text i w h
    unfold sampleArith at h
    revert h
    cases hp : parseInt 64 text with
    | none =>
      dsimp only
      split
      · intro h; cases h; unfold InRange; decide
      · split
        · split
          · rename_i hj; intro h; cases h; exact range _ _ hj
          · intro h; cases h
        · intro h; cases h
    | some j =>
      dsimp only
      split
      · intro h; cases h; exact range _ _ hp
      · intro h; cases h
  · intro v i hi
    unfold sampleArith
    rw [decimalInt_fun, C30_signed_roundtrip 64 i hi.1 hi.2]
    simp

/-- Everything succeeds; `id -u` says 1000. -/
def sampleAnswers : Answers
  | .idU => some (b! "1000")
  | _    => some (b! "0")

/-- The same, but the socket (mode 200) is not writable. -/
def lockedAnswers : Answers
  | .idU        => some (b! "1000")
  | .testW _    => none
  | .statMode _ => some (b! "200")
  | _           => some (b! "0")

/-- C48: the full statement fails.  User 1000 sets `SUDO_UID` to 0 and is connected to their own session.  User 1000,
running the script through sudo, which sets `SUDO_UID` to 1000, gives the argument `SUDO_UID=0,1000`, an
expression that sets `SUDO_UID` to 0 and has the value 1000, and is connected to their own session.
And an argument can be a command that bash runs when it evaluates the argument as a number; since
running the script through sudo needs no approval (C04), the command is run unapproved as any user
that the caller may run the script as. -/
theorem C48_counterexample :
    ¬ C48Full ∧
    .socat (b! "/var/run/sudo_pair/1000.5.sock") ∈
      script sampleArith sampleAnswers (onlySudoUid (some (b! "0"))) [b! "1000", b! "5"] ∧
    (RunBy 1000 (onlySudoUid (some (b! "1000"))) sampleAnswers ∧
      .sayOwn ∈ script sampleArith sampleAnswers (onlySudoUid (some (b! "1000"))) [b! "1000", b! "5"] ∧
      .socat (b! "/var/run/sudo_pair/1000.5.sock") ∈
        script sampleArith sampleAnswers (onlySudoUid (some (b! "1000"))) [b! "SUDO_UID=0,1000", b! "5"]) ∧
    (∀ p : Pair, SamePath p.env.commandInfo.command p.options.binaryPath → p.isExempt false = some true) ∧
    .code (b! "id") ∈ script sampleArith sampleAnswers (onlySudoUid (some (b! "1000"))) [b! "a[$(id)]", b! "5"] := by
  have h1 : .socat (b! "/var/run/sudo_pair/1000.5.sock") ∈
      script sampleArith sampleAnswers (onlySudoUid (some (b! "0"))) [b! "1000", b! "5"] := by
    decide +kernel
  refine ⟨fun hf => ?_, h1, ⟨Or.inr (by decide +kernel), by decide +kernel, by decide +kernel⟩, fun p hp => ?_,
    by decide +kernel⟩
  · exact (hf sampleArith (onlySudoUid (some (b! "0"))) sampleAnswers [b! "1000", b! "5"] _ 1000 sampleArith_reads (by decide)
      (fun out h => by cases h; decide +kernel) .last).2 _ h1 _ 5 rfl (by decide +kernel)
  · have : p.approvalCommand = true := by unfold Pair.approvalCommand; rw [path_eq_iff]; exact hp
    unfold Pair.isExempt
    rw [this]
    unfold Pair.toThemselves
    cases p.fromRoot <;> cases (!p.toUser && !p.toGroup) <;> rfl

/-- The hypotheses of `C48_own_partial` are met by runs that connect: user 1000 approves a session of
user 1001 directly, and by way of sudo. -/
example : RunBy 1000 (onlySudoUid none) sampleAnswers ∧ SparesSudoUid sampleArith (b! "1001") ∧
    .socat (b! "/var/run/sudo_pair/1001.5.sock") ∈ script sampleArith sampleAnswers (onlySudoUid none) [b! "1001", b! "5"] ∧
    .sayOwn ∈ script sampleArith sampleAnswers (onlySudoUid none) [b! "1000", b! "5"] ∧
    ∃ t, Approval sampleArith (onlySudoUid none) lockedAnswers [b! "1001", b! "5"] t ∧ .sudoUser (b! "0") 1001 5 ∈ t ∧
      .socat (b! "/var/run/sudo_pair/1001.5.sock") ∈ t := by
  refine ⟨Or.inl ⟨rfl, fun out h => by cases h; decide +kernel⟩, ?_, by decide +kernel, by decide +kernel,
    _, .again (user := b! "0") (uid := 1001) (pid := 5) (su' := onlySudoUid (some (b! "1000")))
      (ans' := sampleAnswers) (Or.inl ?_) .last, ?_, ?_⟩
  · rw [show b! "1001" = decInt 1001 by decide +kernel]
    exact spares_decimal sampleArith_reads (by unfold InRange; decide)
  all_goals decide +kernel

/-! ### C57 -/

theorem expand_uid (p : Pair) : p.templateSpec.expand (b! "%u") = decInt p.env.userInfo.uid := by
  rw [C28_variables, ← List.append_nil (decInt p.env.userInfo.uid)]
  exact .sub (x := decNat p.env.userInfo.uid) (by rw [← decimal_fun]; rfl) .nil

theorem expand_pid (p : Pair) : p.templateSpec.expand (b! "%p") = decInt p.env.userInfo.pid := by
  rw [C28_variables, ← List.append_nil (decInt p.env.userInfo.pid)]
  exact .sub (x := decInt p.env.userInfo.pid) (by rw [← decimalInt_fun]; rfl) .nil

theorem socket_default {p : Pair} (hd : p.options.socketDir = b! "/var/run/sudo_pair") :
    socket socketDir p.env.userInfo.uid p.env.userInfo.pid = p.socketPath := by
  rw [C17_literal p (by rw [hd]; simp), hd, socketName_eq]
  rfl

/-- C57: run with what the prompt shows for `%u` and `%p`, the script tests and connects to no socket but
the one on which the session waits, if that is in the default directory. -/
theorem C57_same_socket {arith : Arith} {su ans} {p : Pair} (ha : ReadsDecimals arith)
    (hd : p.options.socketDir = b! "/var/run/sudo_pair") (hu : p.env.userInfo.uid < 2 ^ 32)
    (hp : InRange p.env.userInfo.pid) :
    ∀ x ∈ script arith ans su [p.templateSpec.expand (b! "%u"), p.templateSpec.expand (b! "%p")], ∀ path,
      (connectsTo x = some path ∨ x = .testW path) → path = p.socketPath := by
  rw [expand_uid, expand_pid]
  intro x hx path hc
  have key : ∀ uid pid v, Evaluates arith su [decInt p.env.userInfo.uid, decInt p.env.userInfo.pid] uid pid v →
      socket socketDir uid pid = p.socketPath := by
    intro uid pid v h
    obtain ⟨rfl, rfl, _⟩ := evaluates_decimal ha (by unfold InRange; omega) hp h
    exact socket_default hd
  unfold script at hx
  rcases main_mem hx with h | ⟨t, rfl⟩ | ⟨uid, pid, ruid, text, v, v', h1, h3, h4, h5, h6⟩
  · rcases hc with hc | rfl
    · cases x <;> simp [connectsTo, looks] at hc h
    · cases h
  · rcases hc with hc | hc <;> cases hc
  · rw [← key uid pid _ h1]
    rcases h6 with rfl | rfl | ⟨_, rfl⟩ | ⟨_, rfl⟩ | ⟨_, h6⟩
    · rcases hc with hc | hc <;> cases hc; rfl
    · rcases hc with hc | hc <;> cases hc
    · rcases hc with hc | hc <;> cases hc
    · rcases hc with hc | hc <;> cases hc
    · rcases hc with hc | rfl
      · exact connects_pair h6 hc
      · unfold Approve.pair at h6
        simp only [List.cons_append, List.mem_cons, List.mem_append, mem_cmd, List.not_mem_nil, or_false] at h6
        rcases h6 with h | (h | ⟨_, _, h | ⟨_, _, h | ⟨_, _, h⟩⟩⟩) | h <;> cases h

/-- C57: and it does connect, if the caller is another user who may write to the socket and all
commands succeed. -/
theorem C57_connects {arith : Arith} {su ans} {p : Pair} {uid : Nat} (ha : ReadsDecimals arith)
    (hd : p.options.socketDir = b! "/var/run/sudo_pair") (hu : p.env.userInfo.uid < 2 ^ 32)
    (hp : InRange p.env.userInfo.pid) (huid : uid < 2 ^ 32) (hr : RunBy uid su ans) (hne : uid ≠ p.env.userInfo.uid)
    (hok : ∀ c, (ans c).isSome = true)
    (h1 : ∀ q, ∃ k, InRange k ∧ ans (.statUid q) = some (decimalInt k))
    (h2 : ∀ q, ∃ k, InRange k ∧ ans (.statGid q) = some (decimalInt k)) :
    .socat p.socketPath ∈ script arith ans su [p.templateSpec.expand (b! "%u"), p.templateSpec.expand (b! "%p")] := by
  rw [decimalInt_fun] at h1 h2
  replace hr := runBy_iff.1 hr
  rw [expand_uid, expand_pid, ← socket_default hd]
  have go : ∀ {c f x}, (∀ out, ans c = some out → x ∈ f out) → x ∈ cmd ans c f := by
    intro c f x h
    obtain ⟨out, ho⟩ := Option.isSome_iff_exists.1 (hok c)
    exact mem_cmd.2 (Or.inr ⟨out, ho, h out ho⟩)
  have num : ∀ {k v n f x}, InRange k → x ∈ f k (v.set n (decInt k)) → x ∈ assign arith v n (decInt k) f := by
    intro k v n f x hk h
    exact mem_assign.2 (Or.inr ⟨k, _, (assigns_decimal ha hk).2 ⟨rfl, rfl⟩, h⟩)
  unfold script Approve.main
  refine num (by unfold InRange; omega) (num hp ?_)
  rw [(set_own _ _).2, (set_own _ _).1]
  have real : ∀ {f x}, x ∈ f (decInt uid) → x ∈ realUid ans (su (b! "SUDO_UID")) f := by
    intro f x h
    unfold realUid
    split
    · rename_i hs
      refine go fun out ho => ?_
      rcases hr with ⟨_, k⟩ | k
      · rw [k out ho]; exact h
      · rw [k] at hs; exact absurd hs (decNat_ne_nil uid)
    · rename_i hs
      rcases hr with ⟨k, _⟩ | k
      · exact absurd k hs
      · rw [k]; exact h
  refine real (num (by unfold InRange; omega) ?_)
  refine go fun out ho => ?_
  obtain ⟨k, hk, hk'⟩ := h1 (socket socketDir p.env.userInfo.uid p.env.userInfo.pid)
  rw [hk'] at ho; cases ho
  refine num hk (go fun out ho => ?_)
  obtain ⟨k, hk, hk'⟩ := h2 (socket socketDir p.env.userInfo.uid p.env.userInfo.pid)
  rw [hk'] at ho; cases ho
  refine num hk (go fun _ _ => go fun _ _ => go fun _ _ => ?_)
  rw [if_neg (by omega), if_pos (hok _)]
  refine List.mem_cons_of_mem _ (List.mem_cons_of_mem _ (List.mem_append_left _ ?_))
  exact go fun _ _ => go fun _ _ => go fun _ _ => List.mem_singleton.2 rfl

/-- The hypotheses of the two theorems hold for the sample session and user 1. -/
example : samplePair.options.socketDir = b! "/var/run/sudo_pair" ∧ samplePair.env.userInfo.uid < 2 ^ 32 ∧
    InRange samplePair.env.userInfo.pid ∧ RunBy 1 (onlySudoUid (some (b! "1"))) sampleAnswers ∧ 1 ≠ samplePair.env.userInfo.uid ∧
    (∀ c, (sampleAnswers c).isSome = true) := by
  refine ⟨by decide +kernel, by decide +kernel, by unfold InRange; decide +kernel, Or.inr (by decide +kernel), by decide +kernel, ?_⟩
  intro c; cases c <;> rfl

/-! ### C53 -/

theorem DenyEverything.run_append (a b : List DenyEverything.Call) (st) :
    DenyEverything.run (a ++ b) st =
      ((DenyEverything.run a st).1 ++ (DenyEverything.run b (DenyEverything.run a st).2).1,
        (DenyEverything.run b (DenyEverything.run a st).2).2) := by
  induction a generalizing st with
  | nil => rfl
  | cons c a ih => simp only [List.cons_append, DenyEverything.run, ih]

theorem DenyEverything.run_length (a : List DenyEverything.Call) (st) : (DenyEverything.run a st).1.length = a.length := by
  induction a generalizing st with
  | nil => rfl
  | cons c a ih => simp only [DenyEverything.run, List.length_cons, ih]

theorem lastOpen_open {cs v c p v' p'} : LastOpen (cs ++ [.open v c p]) v' p' ↔ v' = v ∧ p' = p := by
  constructor
  · rintro ⟨a, c', b, h, hb⟩
    rcases List.eq_nil_or_concat b with rfl | ⟨b', x, rfl⟩
    · have := List.append_inj' h rfl
      simp at this
      exact ⟨this.2.1.symm, this.2.2.2.symm⟩
    · rw [List.concat_eq_append] at h hb
      have h' : cs ++ [.open v c p] = (a ++ .open v' c' p' :: b') ++ [x] := by rw [h]; simp
      have := (List.append_inj' h' rfl).2
      simp at this
      exact absurd (by simp [this]) (hb v c p)
  · rintro ⟨rfl, rfl⟩
    exact ⟨cs, c, [], rfl, by simp⟩

theorem lastOpen_other {cs x v p} (hx : ∀ v c p, x ≠ .open v c p) : LastOpen (cs ++ [x]) v p ↔ LastOpen cs v p := by
  constructor
  · rintro ⟨a, c', b, h, hb⟩
    rcases List.eq_nil_or_concat b with rfl | ⟨b', y, rfl⟩
    · have := (List.append_inj' h rfl).2
      simp at this
      exact absurd this (hx _ _ _)
    · rw [List.concat_eq_append] at h hb
      have h' : cs ++ [x] = (a ++ .open v c' p :: b') ++ [y] := by rw [h]; simp
      exact ⟨a, c', b', (List.append_inj' h' rfl).1, fun v c p hm => hb v c p (List.mem_append_left _ hm)⟩
  · rintro ⟨a, c', b, rfl, hb⟩
    refine ⟨a, c', b ++ [x], by simp, fun v c p hm => ?_⟩
    rcases List.mem_append.1 hm with h | h
    · exact hb _ _ _ h
    · rw [List.mem_singleton] at h; exact hx _ _ _ h.symm

/-- The state records the last `open`. -/
theorem DenyEverything.state (cs : List DenyEverything.Call) :
    (∀ v p, LastOpen cs v p → (DenyEverything.run cs DenyEverything.init).2.version = some v ∧
      (DenyEverything.run cs DenyEverything.init).2.print = p) ∧
    ((∀ v p, ¬ LastOpen cs v p) → (DenyEverything.run cs DenyEverything.init).2 = DenyEverything.init) := by
  rcases List.eq_nil_or_concat cs with rfl | ⟨cs, x, rfl⟩
  · refine ⟨?_, fun _ => rfl⟩
    rintro v p ⟨a, c, b, h, _⟩
    cases a <;> cases h
  · have ih := DenyEverything.state cs
    rw [List.concat_eq_append, DenyEverything.run_append]
    generalize (DenyEverything.run cs DenyEverything.init).2 = st at ih ⊢
    cases x with
    | «open» v c p =>
      refine ⟨fun v' p' h => ?_, fun h => absurd (lastOpen_open.2 ⟨rfl, rfl⟩) (h v p)⟩
      obtain ⟨rfl, rfl⟩ := lastOpen_open.1 h
      exact ⟨rfl, rfl⟩
    | check =>
      simp only [lastOpen_other (x := .check) (by simp), DenyEverything.run, DenyEverything.step]
      split <;> exact ih
    | showVersion =>
      simp only [lastOpen_other (x := .showVersion) (by simp), DenyEverything.run, DenyEverything.step]
      split <;> exact ih
termination_by cs.length
decreasing_by simp_all

/-- C53: in every history each `check` denies, says so if the last `open` gave a printf function, and assigns
an error string exactly if that `open` also had API version 1.17 or later. -/
theorem C53_denies (cs : List DenyEverything.Call) (i : Nat) (r : DenyEverything.Reply)
    (hc : cs[i]? = some .check) (hr : (DenyEverything.run cs DenyEverything.init).1[i]? = some r) :
    r.ret = 0 ∧ (r.errstr = true ↔ ∃ v, LastOpen (cs.take i) v true ∧ 1 * 65536 + 17 ≤ v.toNat) ∧
      ((∃ v, LastOpen (cs.take i) v true) → r.printed = some (b! "deny_everything: denied\n")) ∧
      ((∀ v, ¬ LastOpen (cs.take i) v true) → r.printed = none) := by
  obtain ⟨hi, hci⟩ := List.getElem?_eq_some_iff.1 hc
  have hsplit : cs = cs.take i ++ .check :: cs.drop (i + 1) := by
    rw [← hci, List.getElem_cons_drop, List.take_append_drop]
  have hr' : (DenyEverything.step .check (DenyEverything.run (cs.take i) DenyEverything.init).2).1 = r := by
    rw [hsplit, DenyEverything.run_append, List.getElem?_append_right (by rw [DenyEverything.run_length, List.length_take]; omega),
      DenyEverything.run_length, List.length_take, Nat.min_eq_left (by omega), Nat.sub_self] at hr
    simpa [DenyEverything.run] using hr
  have hst := DenyEverything.state (cs.take i)
  have hmk : (mkVersion 1 17).toNat = 1 * 65536 + 17 := mkVersion_toNat (by decide) (by decide)
  generalize cs.take i = pre at hr' hst ⊢
  subst hr'
  simp only [DenyEverything.step]
  generalize (DenyEverything.run pre DenyEverything.init).2 = st at hst ⊢
  by_cases hl : ∃ v p, LastOpen pre v p
  · obtain ⟨v, p, hl⟩ := hl
    obtain ⟨h1, h2⟩ := hst.1 v p hl
    rw [h2, h1]
    have uniq : ∀ v' p', LastOpen pre v' p' → v' = v ∧ p' = p := by
      intro v' p' h
      obtain ⟨h3, h4⟩ := hst.1 v' p' h
      rw [h1] at h3; rw [h2] at h4
      exact ⟨by injection h3 with h3; exact h3.symm, h4.symm⟩
    cases p with
    | false =>
      refine ⟨rfl, ⟨fun h => (by cases h), ?_⟩, ?_, fun _ => rfl⟩
      · rintro ⟨v', h, _⟩; cases (uniq _ _ h).2
      · rintro ⟨v', h⟩; cases (uniq _ _ h).2
    | true =>
      refine ⟨rfl, ⟨fun h => ⟨v, hl, ?_⟩, ?_⟩, fun _ => rfl, fun h => absurd hl (h v)⟩
      · have : mkVersion 1 17 ≤ v := by simpa using h
        rw [BitVec.le_def, hmk] at this; exact this
      · rintro ⟨v', h, h'⟩
        obtain ⟨rfl, _⟩ := uniq _ _ h
        have : mkVersion 1 17 ≤ v' := by rw [BitVec.le_def, hmk]; exact h'
        simpa using this
  · have hno : ∀ v p, ¬ LastOpen pre v p := fun v p h => hl ⟨v, p, h⟩
    rw [hst.2 hno]
    exact ⟨rfl, ⟨fun h => (by cases h), fun ⟨v, h, _⟩ => absurd h (hno v true)⟩, fun ⟨v, h⟩ => absurd h (hno v true), fun _ => rfl⟩

/-- C53: nothing but `check` touches the error string, and `open` always succeeds silently. -/
theorem C53_others (c : DenyEverything.Call) (st : DenyEverything.State) (hc : c ≠ .check) :
    (DenyEverything.step c st).1.errstr = false ∧
      (∀ v conv p, c = .open v conv p → (DenyEverything.step c st).1 = ⟨1, none, false⟩) := by
  cases c with
  | «open» v conv p => exact ⟨rfl, fun _ _ _ _ => rfl⟩
  | check => exact absurd rfl hc
  | showVersion =>
    refine ⟨?_, fun _ _ _ h => by cases h⟩
    unfold DenyEverything.step
    dsimp only
    split <;> rfl

/-- C53: `show_version` prints the version and succeeds exactly if the last `open` gave a printf function. -/
theorem C53_version (cs : List DenyEverything.Call) (i : Nat) (r : DenyEverything.Reply)
    (hc : cs[i]? = some .showVersion) (hr : (DenyEverything.run cs DenyEverything.init).1[i]? = some r) :
    ((∃ v, LastOpen (cs.take i) v true) → r = ⟨1, some (b! "Deny Everything version 1.0\n"), false⟩) ∧
      ((∀ v, ¬ LastOpen (cs.take i) v true) → r = ⟨0, none, false⟩) := by
  obtain ⟨hi, hci⟩ := List.getElem?_eq_some_iff.1 hc
  have hsplit : cs = cs.take i ++ .showVersion :: cs.drop (i + 1) := by
    rw [← hci, List.getElem_cons_drop, List.take_append_drop]
  have hr' : (DenyEverything.step .showVersion (DenyEverything.run (cs.take i) DenyEverything.init).2).1 = r := by
    rw [hsplit, DenyEverything.run_append, List.getElem?_append_right (by rw [DenyEverything.run_length, List.length_take]; omega),
      DenyEverything.run_length, List.length_take, Nat.min_eq_left (by omega), Nat.sub_self] at hr
    simpa [DenyEverything.run] using hr
  have hst := DenyEverything.state (cs.take i)
  generalize cs.take i = pre at hr' hst ⊢
  subst hr'
  simp only [DenyEverything.step]
  generalize (DenyEverything.run pre DenyEverything.init).2 = st at hst ⊢
  constructor
  · rintro ⟨v, hl⟩
    rw [(hst.1 v true hl).2]; rfl
  · intro hno
    by_cases hl : ∃ v p, LastOpen pre v p
    · obtain ⟨v, p, hl⟩ := hl
      cases p with
      | true => exact absurd hl (hno v)
      | false => rw [(hst.1 v false hl).2]; rfl
    · rw [hst.2 fun v p h => hl ⟨v, p, h⟩]; rfl

/-- The cases of `C53_denies` all occur. -/
example : (DenyEverything.run [.check, .open (mkVersion 1 17) true true, .check, .showVersion, .open (mkVersion 1 16) true true, .check,
    .open (mkVersion 1 17) true false, .check] DenyEverything.init).1.map (fun r => (r.ret, r.errstr)) =
    [(0, false), (1, false), (0, true), (1, false), (1, false), (0, false), (1, false), (0, false)] := by decide

/-! ### C56 -/

theorem writePieces_printed {pf : PrintFacility} (l : List Bytes) {o h} (hl : ∀ x ∈ l, (37 : UInt8) ∉ x ∧ (0 : UInt8) ∉ x)
    (ht : PrintfTruth h) (hr : Runs (Core.writePieces pf l) o h) :
    (o = .ok true ∧ screen h = some l.flatten) ∨
    (o = .ok false ∧ (∃ t, screen h = some t ∧ t <+: l.flatten) ∧ (pf.hasPrintf = false ∨ ∃ e ∈ h, PrintfFails e)) ∨ o = .killed := by
  induction l generalizing o h with
  | nil =>
    obtain ⟨rfl, rfl⟩ := hr.pure
    exact Or.inl ⟨rfl, rfl⟩
  | cons x l ih =>
    unfold Core.writePieces at hr
    inv Runs.bind hr with ⟨b, h1, h2, k1, hr, rfl⟩ | ⟨rfl, k1⟩ | ⟨rfl, k1⟩
    · have hx := hl x (by simp)
      have w := printWriteAll_printed k1 hx.1 ht.left
      cases b with
      | false =>
        obtain ⟨rfl, rfl⟩ := hr.pure
        obtain ⟨w1, w2⟩ := w.no rfl
        rw [List.append_nil]
        refine Or.inr (Or.inl ⟨rfl, ⟨[], w1, List.nil_prefix⟩, ?_⟩)
        rcases w2 with w2 | w2 | w2
        · exact Or.inl w2
        · exact absurd w2 hx.2
        · exact Or.inr w2
      | true =>
        simp only [if_true] at hr
        rcases ih (fun y hy => hl y (List.mem_cons_of_mem _ hy)) ht.right hr with ⟨rfl, k⟩ | ⟨rfl, ⟨t, k, k'⟩, k2⟩ | rfl
        · exact Or.inl ⟨rfl, screen_append (w.yes rfl) k⟩
        · refine Or.inr (Or.inl ⟨rfl, ⟨x ++ t, screen_append (w.yes rfl) k, ?_⟩, k2.imp_right ?_⟩)
          · rw [List.flatten_cons]; exact (List.prefix_append_right_inj x).2 k'
          · rintro ⟨e, h3, h4⟩; exact ⟨e, List.mem_append_right _ h3, h4⟩
        · exact Or.inr (Or.inr rfl)
    · exact absurd rfl (printWriteAll_printed k1 (hl x (by simp)).1 ht).noPanic
    · exact Or.inr (Or.inr rfl)

/-- A completed `show_version`. -/
theorem showVersion_cases {st : State} {o h} (hr : Runs (Core.showVersion st) o h) :
    (st.env = none ∧ o = .ok (-1) ∧ h = []) ∨ ∃ env o', st.env = some env ∧
      Runs (Core.writePieces (PrintFacility.stdout env.hasPrintf) Core.versionPieces) o' h ∧
      ((∃ b, o' = .ok b ∧ o = .ok 1) ∨ (o' = .panic ∧ o = .ok (-1)) ∨ (o' = .killed ∧ o = .killed)) := by
  unfold Core.showVersion at hr
  cases he : st.env with
  | none =>
    rw [he] at hr
    obtain ⟨s, h1, h2⟩ := hr
    exact Or.inl ⟨rfl, h1.symm, h2.symm⟩
  | some env =>
    rw [he] at hr
    refine Or.inr ⟨env, ?_⟩
    have body : ∀ {o h}, Runs (M.ofOption (some env) >>= fun env => do
          let _ ← Core.writePieces (PrintFacility.stdout env.hasPrintf) Core.versionPieces
          pure ()) o h →
        ∃ o', Runs (Core.writePieces (PrintFacility.stdout env.hasPrintf) Core.versionPieces) o' h ∧
          ((∃ b, o' = .ok b ∧ o = .ok ()) ∨ (o' = .panic ∧ o = .panic) ∨ (o' = .killed ∧ o = .killed)) := by
      intro o h hr
      rw [M.ofOption_some] at hr
      replace hr := hr.pure_bind
      inv Runs.bind hr with ⟨b, h1, h2, k1, hr, rfl⟩ | ⟨rfl, k1⟩ | ⟨rfl, k1⟩
      · obtain ⟨rfl, rfl⟩ := hr.pure
        rw [List.append_nil]
        exact ⟨_, k1, Or.inl ⟨b, rfl, rfl⟩⟩
      · exact ⟨_, k1, Or.inr (Or.inl ⟨rfl, rfl⟩)⟩
      · exact ⟨_, k1, Or.inr (Or.inr ⟨rfl, rfl⟩)⟩
    inv Runs.bind hr with ⟨b, h1, h2, k1, hr, rfl⟩ | ⟨rfl, k1⟩ | ⟨rfl, k1⟩
    · rcases k1.catchUnwind with ⟨a, k2, k3⟩ | ⟨k2, k3⟩ | ⟨k2, k3⟩
      · cases k2
        obtain ⟨rfl, rfl⟩ := hr.pure
        rw [List.append_nil]
        obtain ⟨o', k4, ⟨b, k5, _⟩ | ⟨_, k5⟩ | ⟨_, k5⟩⟩ := body k3
        · exact ⟨o', rfl, k4, Or.inl ⟨b, k5, rfl⟩⟩
        · cases k5
        · cases k5
      · cases k2
        obtain ⟨rfl, rfl⟩ := hr.pure
        rw [List.append_nil]
        obtain ⟨o', k4, ⟨b, _, k5⟩ | ⟨k5, _⟩ | ⟨_, k5⟩⟩ := body k3
        · cases k5
        · exact ⟨o', rfl, k4, Or.inr (Or.inl ⟨k5, rfl⟩)⟩
        · cases k5
      · cases k2
    · rcases k1.catchUnwind with ⟨a, k2, k3⟩ | ⟨k2, k3⟩ | ⟨k2, k3⟩ <;> cases k2
    · rcases k1.catchUnwind with ⟨a, k2, k3⟩ | ⟨k2, k3⟩ | ⟨k2, k3⟩
      · cases k2
      · cases k2
      · obtain ⟨o', k4, ⟨b, _, k5⟩ | ⟨_, k5⟩ | ⟨k5, _⟩⟩ := body k3
        · cases k5
        · cases k5
        · exact ⟨o', rfl, k4, Or.inr (Or.inr ⟨k5, rfl⟩)⟩

/-- C56: with a stored environment, `show_version` returns 1, and has shown the version line, or a
beginning of it if there is no printf function or it fails. -/
theorem C56_shown {st : State} {env : IoEnv} {r h} (he : st.env = some env) (hr : Runs (Core.showVersion st) (.ok r) h)
    (ht : PrintfTruth h) : r = 1 ∧ ∃ t, screen h = some t ∧ t <+: b! "sudo_pair I/O plugin version 1.2.0\n" ∧
      (env.hasPrintf = true → (∀ e ∈ h, ¬ PrintfFails e) → t = b! "sudo_pair I/O plugin version 1.2.0\n") := by
  rcases showVersion_cases hr with ⟨h0, _⟩ | ⟨env', o', h1, h2, h3⟩
  · rw [he] at h0; cases h0
  · rw [he] at h1; cases h1
    rcases writePieces_printed _ (by decide) ht h2 with ⟨rfl, k⟩ | ⟨rfl, ⟨t, k, k'⟩, k2⟩ | rfl
    · rcases h3 with ⟨_, _, h3⟩ | ⟨h3, _⟩ | ⟨h3, _⟩ <;> cases h3
      exact ⟨rfl, _, k, List.prefix_refl _, fun _ _ => rfl⟩
    · rcases h3 with ⟨_, _, h3⟩ | ⟨h3, _⟩ | ⟨h3, _⟩ <;> cases h3
      refine ⟨rfl, t, k, k', fun hp hf => ?_⟩
      rcases k2 with k2 | ⟨e, k2, k3⟩
      · rw [show (PrintFacility.stdout env.hasPrintf).hasPrintf = env.hasPrintf from rfl, hp] at k2; cases k2
      · exact absurd k3 (hf e k2)
    · rcases h3 with ⟨_, h3, _⟩ | ⟨h3, _⟩ | ⟨_, h3⟩ <;> cases h3

/-- C56: without one it returns -1 and does nothing. -/
theorem C56_refused {st : State} {o h} (he : st.env = none) (hr : Runs (Core.showVersion st) o h) : o = .ok (-1) ∧ h = [] := by
  rcases showVersion_cases hr with ⟨_, h1⟩ | ⟨env', o', h1, _⟩
  · exact h1
  · rw [he] at h1; cases h1

/-- C56: it does nothing but call printf with parts of the version line, on standard output, and leaves the
state alone. -/
theorem C56_only_prints {rt : Rt} {st : State} {o h} (hr : Runs (Core.step rt .showVersion st) o h) :
    (∀ e ∈ h, ∃ fmt, e.call = .printf 4 fmt ∧ fmt <:+: b! "sudo_pair I/O plugin version 1.2.0\n") ∧
    ∀ r st', o = .ok (r, st') → st' = st := by
  have calls : ∀ {o h}, Runs (Core.showVersion st) o h →
      ∀ e ∈ h, ∃ fmt, e.call = .printf 4 fmt ∧ fmt <:+: b! "sudo_pair I/O plugin version 1.2.0\n" := by
    intro o h hr
    rcases showVersion_cases hr with ⟨_, _, rfl⟩ | ⟨env, o', _, h2, _⟩
    · simp
    · have key : ∀ (l : List Bytes) {o h}, Runs (Core.writePieces (PrintFacility.stdout env.hasPrintf) l) o h →
          ∀ e ∈ h, ∃ fmt, e.call = .printf 4 fmt ∧ fmt <:+: l.flatten := by
        intro l
        induction l with
        | nil => intro o h hr; obtain ⟨_, rfl⟩ := hr.pure; simp
        | cons x l ih =>
          intro o h hr
          unfold Core.writePieces at hr
          have one : ∀ {o h}, Runs ((PrintFacility.stdout env.hasPrintf).writeAll x) o h →
              ∀ e ∈ h, ∃ fmt, e.call = .printf 4 fmt ∧ fmt <:+: (x :: l).flatten := by
            intro o h hr e he
            obtain ⟨fmt, h1, h2, _⟩ := wp_iff_runs.1 (printWriteAll_calls _ x) _ _ hr e he
            exact ⟨fmt, h1, h2.isInfix.trans (List.prefix_append x _).isInfix⟩
          inv Runs.bind hr with ⟨b, h1, h2, k1, hr, rfl⟩ | ⟨rfl, k1⟩ | ⟨rfl, k1⟩
          · refine List.forall_mem_append.2 ⟨one k1, ?_⟩
            cases b with
            | false => obtain ⟨_, rfl⟩ := hr.pure; simp
            | true =>
              intro e he
              obtain ⟨fmt, h1, h2⟩ := ih hr e he
              exact ⟨fmt, h1, h2.trans (List.suffix_append x _).isInfix⟩
          · exact one k1
          · exact one k1
      exact key _ h2
  unfold Core.step at hr
  inv Runs.bind hr with ⟨b, h1, h2, k1, hr, rfl⟩ | ⟨rfl, k1⟩ | ⟨rfl, k1⟩
  · obtain ⟨rfl, rfl⟩ := hr.pure
    rw [List.append_nil]
    exact ⟨calls k1, fun r st' h => by cases h; rfl⟩
  · exact ⟨calls k1, fun r st' h => by cases h⟩
  · exact ⟨calls k1, fun r st' h => by cases h⟩

/-- A run as in `C56_shown`, through the callback. -/
example : (Core.showVersion ⟨some sampleEnv, none⟩ (List.replicate 9 (coop 121))).1 = .ok 1 ∧
    screen (Core.showVersion ⟨some sampleEnv, none⟩ (List.replicate 9 (coop 121))).2.1 =
      some (b! "sudo_pair I/O plugin version 1.2.0\n") := by
  decide +kernel

end SudoPair
