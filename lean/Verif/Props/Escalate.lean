import Verif.Props.Extras
import Mathlib.Data.Nat.Bitwise
/-
C62: which identity the approval script takes when its caller may not write to the socket.
-/
namespace SudoPair

open Spec Approve

/-! ### Octal numbers -/

theorem digit_toNat {d : Nat} (h : d < 8) : (48 + d.toUInt8 : UInt8).toNat = 48 + d := by
  have : d.toUInt8.toNat = d := by
    show d % 256 = d
    omega
  rw [UInt8.toNat_add, this]
  show (48 + d) % 256 = _
  omega

theorem octalText_digits (m : Nat) :
    octalText m ≠ [] ∧ (∀ b ∈ octalText m, (48 ≤ b ∧ b ≤ 55)) ∧
    (octalText m).foldl (fun a b => a * 8 + (b.toNat - 48)) 0 = m := by
  have dig : ∀ d, d < 8 → (48 : UInt8) ≤ 48 + d.toUInt8 ∧ (48 + d.toUInt8 : UInt8) ≤ 55 := by
    intro d hd
    rw [UInt8.le_iff_toNat_le, UInt8.le_iff_toNat_le, digit_toNat hd]
    exact ⟨by show 48 ≤ _; omega, by show _ ≤ 55; omega⟩
  induction m using Nat.strongRecOn with
  | _ m ih =>
    unfold octalText
    split
    · rename_i hm
      refine ⟨by simp, ?_, ?_⟩
      · intro b hb
        rw [List.mem_singleton] at hb
        subst hb
        exact dig m hm
      · simp only [List.foldl_cons, List.foldl_nil, digit_toNat hm]
        omega
    · rename_i hm
      obtain ⟨_, h2, h3⟩ := ih (m / 8) (by omega)
      refine ⟨by simp, ?_, ?_⟩
      · intro b hb
        rcases List.mem_append.1 hb with hb | hb
        · exact h2 b hb
        · rw [List.mem_singleton] at hb
          subst hb
          exact dig _ (by omega)
      · rw [List.foldl_append, h3]
        simp only [List.foldl_cons, List.foldl_nil, digit_toNat (show m % 8 < 8 by omega)]
        omega

/-- The script reads what `stat` prints. -/
theorem octal_octalText (m : Nat) : octal (octalText m) = some m := by
  obtain ⟨h1, h2, h3⟩ := octalText_digits m
  unfold octal
  rw [if_pos ⟨h1, by simpa using h2⟩, h3]

theorem and_bit (m i : Nat) : (m &&& 2 ^ i ≠ 0) ↔ m.testBit i = true := by
  rw [Nat.and_two_pow]
  cases m.testBit i <;> simp

/-! ### C62 -/

/-- C62: called by another user who may not write to the socket, the script looks at the socket and then
calls itself as the owner of the socket if the owner may write to it, else as its group if the group
may, and else gives up; it does nothing else. -/
theorem C62_escalates {arith : Arith} {su ans} {p : Pair} {caller owner grp mode : Nat} {user group : Bytes}
    (ha : ReadsDecimals arith) (hd : p.options.socketDir = b! "/var/run/sudo_pair")
    (hu : p.env.userInfo.uid < 2 ^ 32) (hp : InRange p.env.userInfo.pid)
    (hc : caller < 2 ^ 32) (hr : RunBy caller su ans) (hid : ans .idU ≠ none) (hne : caller ≠ p.env.userInfo.uid)
    (ho : owner < 2 ^ 32) (hg : grp < 2 ^ 32)
    (h1 : ans (.statUid p.socketPath) = some (decimalInt owner)) (h2 : ans (.statGid p.socketPath) = some (decimalInt grp))
    (h3 : ans (.userName owner) = some user) (h4 : ans (.groupName grp) = some group)
    (h5 : ans (.statMode p.socketPath) = some (octalText mode)) (h6 : ans (.testW p.socketPath) = none) :
    script arith ans su [p.templateSpec.expand (b! "%u"), p.templateSpec.expand (b! "%p")] =
      (if (su (b! "SUDO_UID")).getD [] = [] then [.idU] else []) ++
      [.statUid p.socketPath, .statGid p.socketPath, .userName owner, .groupName grp,
        .statMode p.socketPath, .testW p.socketPath,
        if mode.testBit 7 then .sudoUser user p.env.userInfo.uid p.env.userInfo.pid
        else if mode.testBit 4 then .sudoGroup group p.env.userInfo.uid p.env.userInfo.pid
        else .sayMode] := by
  rw [decimalInt_fun] at h1 h2
  replace hr := runBy_iff.1 hr
  have num : ∀ {k v n f}, InRange k → assign arith v n (decInt k) f = f k (v.set n (decInt k)) := by
    intro k v n f hk
    unfold assign
    rw [reads_decimals ha hk]
    rfl
  have small : ∀ {n : Nat}, n < 2 ^ 32 → InRange n := by
    intro n hn; unfold InRange; omega
  rw [expand_uid, expand_pid]
  show Approve.main arith ans su socketDir (decInt p.env.userInfo.uid) (decInt p.env.userInfo.pid) = _
  unfold Approve.main
  rw [num (small hu), num hp, socket_default hd, (set_own _ _).2, (set_own _ _).1]
  have real : ∀ f, realUid ans (su (b! "SUDO_UID")) f = (if (su (b! "SUDO_UID")).getD [] = [] then [.idU] else []) ++ f (decInt caller) := by
    intro f
    unfold realUid
    split
    · rename_i hs
      cases hi : ans .idU with
      | none => exact absurd hi hid
      | some out =>
        unfold cmd
        rw [hi]
        rcases hr with ⟨_, k⟩ | k
        · rw [k out hi]; rfl
        · rw [k] at hs; exact absurd hs (decNat_ne_nil caller)
    · rename_i hs
      rcases hr with ⟨k, _⟩ | k
      · exact absurd k hs
      · rw [k]; rfl
  rw [real, num (small hc)]
  congr 1
  simp only [cmd, h1, h2, num (small ho), num (small hg), h3, h4, h5, h6]
  rw [if_neg (by omega), octal_octalText]
  have b7 : (mode &&& 128 ≠ 0) ↔ _ := and_bit mode 7
  have b4 : (mode &&& 16 ≠ 0) ↔ _ := and_bit mode 4
  simp only [Option.isSome_none, Bool.false_eq_true, if_false]
  by_cases k7 : mode.testBit 7 = true
  · rw [if_pos (b7.2 k7), if_pos k7]
  · rw [if_neg (mt b7.1 k7), if_neg k7]
    by_cases k4 : mode.testBit 4 = true
    · rw [if_pos (b4.2 k4), if_pos k4]
    · rw [if_neg (mt b4.1 k4), if_neg k4]

/-- C62: with the owner, group and mode that the plugin gives the socket of a session that needs a pair,
the script takes the very identity that the session is for (user, or explicit group), and, run
again under it by sudo for the same caller, connects to the socket. -/
theorem C62_reaches {arith : Arith} {su} {ans ans' : Answers} {p : Pair} {caller grp owner mode : Nat} {user group : Bytes}
    (ha : ReadsDecimals arith) (hd : p.options.socketDir = b! "/var/run/sudo_pair")
    (hu : p.env.userInfo.uid < 2 ^ 32) (hp : InRange p.env.userInfo.pid)
    (hc : caller < 2 ^ 32) (hr : RunBy caller su ans) (hid : ans .idU ≠ none) (hne : caller ≠ p.env.userInfo.uid)
    (ho : owner < 2 ^ 32) (hg : grp < 2 ^ 32)
    (hmode : p.socketMode = some mode)
    (hown : p.socketUid ≠ 4294967295 → owner = p.socketUid)
    (hgrp : p.socketGid ≠ 4294967295 → grp = p.socketGid)
    (hids : p.env.commandInfo.runasEuid ≠ 4294967295 ∧ p.env.commandInfo.runasEgid ≠ 4294967295)
    (h1 : ans (.statUid p.socketPath) = some (decimalInt owner)) (h2 : ans (.statGid p.socketPath) = some (decimalInt grp))
    (h3 : ans (.userName owner) = some user) (h4 : ans (.groupName grp) = some group)
    (h5 : ans (.statMode p.socketPath) = some (octalText mode)) (h6 : ans (.testW p.socketPath) = none)
    (hok : ∀ c, (ans' c).isSome = true)
    (h1' : ∀ q, ∃ k, InRange k ∧ ans' (.statUid q) = some (decimalInt k))
    (h2' : ∀ q, ∃ k, InRange k ∧ ans' (.statGid q) = some (decimalInt k)) :
    ∃ t, Approval arith su ans [p.templateSpec.expand (b! "%u"), p.templateSpec.expand (b! "%p")] t ∧
      .socat p.socketPath ∈ t ∧
      ((p.env.commandInfo.runasEuid ≠ p.env.userInfo.uid ∧ owner = p.env.commandInfo.runasEuid ∧
          .sudoUser user p.env.userInfo.uid p.env.userInfo.pid ∈ t) ∨
       (p.env.commandInfo.runasEuid = p.env.userInfo.uid ∧ p.env.settings.runasGroup ≠ none ∧
          grp = p.env.commandInfo.runasEgid ∧
          .sudoGroup group p.env.userInfo.uid p.env.userInfo.pid ∈ t)) := by
  have hs := C62_escalates ha hd hu hp hc hr hid hne ho hg h1 h2 h3 h4 h5 h6
  have hcon := C57_connects (su := fun _ => some (decimalInt caller)) (ans := ans') ha hd hu hp hc (Or.inr rfl) hne hok h1' h2'
  have hargs : [p.templateSpec.expand (b! "%u"), p.templateSpec.expand (b! "%p")] =
      [decimalInt p.env.userInfo.uid, decimalInt p.env.userInfo.pid] := by rw [expand_uid, expand_pid, decimalInt_fun]
  unfold Pair.socketMode at hmode
  by_cases h : p.toUser = true
  · rw [if_pos h] at hmode
    cases hmode
    have hm : .sudoUser user p.env.userInfo.uid p.env.userInfo.pid ∈
        script arith ans su [p.templateSpec.expand (b! "%u"), p.templateSpec.expand (b! "%p")] := by
      rw [hs, if_pos (show Socket.S_IWUSR.testBit 7 = true by decide)]
      simp
    have hsu : p.socketUid = p.env.commandInfo.runasEuid := by
      unfold Pair.socketUid; rw [if_pos h]
    refine ⟨_, .again (su' := fun _ => some (decimalInt caller)) (ans' := ans') (Or.inl hm) .last, ?_, Or.inl ⟨?_, ?_, ?_⟩⟩
    · rw [hargs] at hcon
      exact List.mem_append_right _ hcon
    · intro he
      unfold Pair.toUser at h
      simp [he] at h
    · rw [← hsu]; exact hown (by rw [hsu]; exact hids.1)
    · exact List.mem_append_left _ hm
  · rw [if_neg h] at hmode
    by_cases h' : p.toExplicitGroup = true
    · rw [if_pos h'] at hmode
      cases hmode
      have hm : .sudoGroup group p.env.userInfo.uid p.env.userInfo.pid ∈
          script arith ans su [p.templateSpec.expand (b! "%u"), p.templateSpec.expand (b! "%p")] := by
        rw [hs, if_neg (show ¬ Socket.S_IWGRP.testBit 7 = true by decide),
          if_pos (show Socket.S_IWGRP.testBit 4 = true by decide)]
        simp
      have hsu : p.socketGid = p.env.commandInfo.runasEgid := by
        unfold Pair.socketGid; rw [if_pos h']
      refine ⟨_, .again (su' := fun _ => some (decimalInt caller)) (ans' := ans') (Or.inr hm) .last, ?_, Or.inr ⟨?_, ?_, ?_, ?_⟩⟩
      · rw [hargs] at hcon
        exact List.mem_append_right _ hcon
      · unfold Pair.toUser at h
        simp only [ne_eq, not_not, decide_eq_true_eq] at h
        exact h.symm
      · unfold Pair.toExplicitGroup at h'
        intro hn; simp [hn] at h'
      · rw [← hsu]; exact hgrp (by rw [hsu]; exact hids.2)
      · exact List.mem_append_left _ hm
    · rw [if_neg h'] at hmode
      cases hmode

/-- Socket of root with mode 200: the sample answers for a caller who may not write to it. -/
def lockedRoot : Answers
  | .idU         => some (b! "1")
  | .testW _     => none
  | .statMode _  => some (b! "200")
  | .userName _  => some (b! "root")
  | .groupName _ => some (b! "wheel")
  | _            => some (b! "0")

/-- Non-vacuity: user 1 and the sample session, which runs as root. -/
example : samplePair.socketMode = some 0o200 ∧ octalText 0o200 = b! "200" ∧ octalText 0o20 = b! "20" ∧
    RunBy 1 (onlySudoUid none) lockedRoot ∧ samplePair.socketUid = 0 ∧
    lockedRoot (.statUid samplePair.socketPath) = some (decimalInt samplePair.socketUid) ∧
    script sampleArith lockedRoot (onlySudoUid none) [b! "1000", b! "42"] =
      [.idU, .statUid samplePair.socketPath, .statGid samplePair.socketPath, .userName 0, .groupName 0,
        .statMode samplePair.socketPath, .testW samplePair.socketPath, .sudoUser (b! "root") 1000 42] := by
  refine ⟨by decide, by decide +kernel, by decide +kernel, Or.inl ⟨rfl, fun out h => ?_⟩, by decide, by decide +kernel,
    by decide +kernel⟩
  cases h; decide +kernel

end SudoPair
