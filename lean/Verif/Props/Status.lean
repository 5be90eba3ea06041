import Verif.Model.Status
import Verif.Spec.Status
import Verif.Props.Extras
/-
C80: the exit status of the approval script.
-/
namespace SudoPair
open Spec Approve

namespace Approve

theorem full_cmd {ans codes c} {k : Bytes → Full.Run} {k' : Bytes → List Cmd} (h : ∀ out, (k out).1 = k' out) :
    (Full.cmd ans codes c k).1 = cmd ans c k' := by
  unfold Full.cmd cmd
  cases ans c with
  | none => rfl
  | some out => simp [h out]

theorem full_assign {arith v name text} {k : Int → Vars → Full.Run} {k' : Int → Vars → List Cmd}
    (h : ∀ i w, (k i w).1 = k' i w) : (Full.assign arith v name text k).1 = assign arith v name text k' := by
  unfold Full.assign assign
  cases (arith v text).2 with
  | none => simp
  | some r => simp [h]

theorem full_pair {ans codes path} : (Full.pair ans codes path).1 = pair ans path := by
  unfold Full.pair pair
  simp only
  rw [full_cmd (k' := fun _ => cmd ans .sttyIntr fun _ => cmd ans .clear fun _ => [.socat path])]
  intro _
  refine full_cmd fun _ => full_cmd fun _ => ?_
  unfold Full.cmd Full.done
  cases ans (.socat path) <;> rfl

theorem full_last {ans codes c n} : (Full.cmd ans codes c fun _ => Full.done n).1 = [c] := by
  unfold Full.cmd Full.done
  cases ans c <;> rfl

theorem full_realUid {ans codes su} {k : Bytes → Full.Run} {k' : Bytes → List Cmd} (h : ∀ out, (k out).1 = k' out) :
    (Full.realUid ans codes su k).1 = realUid ans su k' := by
  unfold Full.realUid realUid
  split
  · exact full_cmd h
  · exact h _

/-- The status `r.2` is the one that the commands `r.1` should have. -/
structure Tells (ans : Answers) (codes : Codes) (r : Full.Run) : Prop where
  success : r.2 = 0 ↔ (∃ x ∈ r.1, Purpose x ∧ ans x ≠ none) ∧ (.sttyRestore ∈ r.1 → ans .sttyRestore ≠ none)
  failure : ∀ x ∈ r.1, ans x = none → (∀ p, x ≠ .testW p) → x ≠ .sttyGet → (∀ t, x ≠ .code t) →
    r.2 = codes x ∨ (.sttyRestore ∈ r.1 ∧ ans .sttyRestore = none ∧ r.2 = codes .sttyRestore)
  own : .sayOwn ∈ r.1 → ans .sayOwn ≠ none → r.2 = 1
  usage : .usage ∈ r.1 → ans .usage ≠ none → r.2 = 1
  mode : .sayMode ∈ r.1 → ans .sayMode ≠ none → r.2 = 2

/-- Commands that decide nothing by themselves. -/
def Plain (c : Cmd) : Prop := ¬ Purpose c ∧ c ≠ .sttyRestore ∧ c ≠ .sayOwn ∧ c ≠ .usage ∧ c ≠ .sayMode

theorem Tells.cmd {ans codes c} {k : Bytes → Full.Run} (hcodes : ∀ c, codes c ≠ 0) (hp : Plain c)
    (h : ∀ out, Tells ans codes (k out)) : Tells ans codes (Full.cmd ans codes c k) := by
  obtain ⟨h1, h2, h3, h4, h5⟩ := hp
  unfold Full.cmd
  cases hc : ans c with
  | none =>
    refine ⟨?_, ?_, ?_, ?_, ?_⟩
    · simp only [hcodes c, List.mem_singleton, false_iff]
      rintro ⟨⟨x, rfl, hx, _⟩, _⟩
      exact h1 hx
    · intro x hx _ _ _ _
      rw [List.mem_singleton] at hx; subst hx; exact .inl rfl
    · intro hx; rw [List.mem_singleton] at hx; exact absurd hx.symm h3
    · intro hx; rw [List.mem_singleton] at hx; exact absurd hx.symm h4
    · intro hx; rw [List.mem_singleton] at hx; exact absurd hx.symm h5
  | some out =>
    obtain ⟨k1, k2, k3, k4, k5⟩ := h out
    refine ⟨?_, ?_, ?_, ?_, ?_⟩
    · rw [k1]
      simp only [List.mem_cons]
      constructor
      · rintro ⟨⟨x, hx, hp, hn⟩, hr⟩
        exact ⟨⟨x, .inr hx, hp, hn⟩, fun hx => hr (hx.resolve_left fun e => h2 e.symm)⟩
      · rintro ⟨⟨x, rfl | hx, hp, hn⟩, hr⟩
        · exact absurd hp h1
        · exact ⟨⟨x, hx, hp, hn⟩, fun hx => hr (.inr hx)⟩
    · intro x hx hn hx1 hx2 hx3
      rcases List.mem_cons.1 hx with rfl | hx
      · rw [hc] at hn; cases hn
      · rcases k2 x hx hn hx1 hx2 hx3 with h | ⟨h, h', h''⟩
        · exact .inl h
        · exact .inr ⟨.tail _ h, h', h''⟩
    · intro hx hn; exact k3 ((List.mem_cons.1 hx).resolve_left fun e => h3 e.symm) hn
    · intro hx hn; exact k4 ((List.mem_cons.1 hx).resolve_left fun e => h4 e.symm) hn
    · intro hx hn; exact k5 ((List.mem_cons.1 hx).resolve_left fun e => h5 e.symm) hn

/-- Some commands in front that have no say. -/
theorem Tells.front {ans codes} {t : List Cmd} {r : Full.Run}
    (ht : ∀ x ∈ t, Plain x ∧ ((∃ p, x = .testW p) ∨ x = .sttyGet ∨ ∃ c, x = .code c)) (h : Tells ans codes r) :
    Tells ans codes (t ++ r.1, r.2) := by
  obtain ⟨k1, k2, k3, k4, k5⟩ := h
  refine ⟨?_, ?_, ?_, ?_, ?_⟩
  · rw [k1]
    simp only [List.mem_append]
    constructor
    · rintro ⟨⟨x, hx, hp, hn⟩, hr⟩
      exact ⟨⟨x, .inr hx, hp, hn⟩, fun hx => hr (hx.resolve_left fun e => (ht _ e).1.2.1 rfl)⟩
    · rintro ⟨⟨x, hx | hx, hp, hn⟩, hr⟩
      · exact absurd hp (ht x hx).1.1
      · exact ⟨⟨x, hx, hp, hn⟩, fun hx => hr (.inr hx)⟩
  · intro x hx hn hx1 hx2 hx3
    rcases List.mem_append.1 hx with hx | hx
    · rcases (ht x hx).2 with ⟨p, h⟩ | h | ⟨c, h⟩
      · exact absurd h (hx1 p)
      · exact absurd h hx2
      · exact absurd h (hx3 c)
    · rcases k2 x hx hn hx1 hx2 hx3 with h | ⟨h, h', h''⟩
      · exact .inl h
      · exact .inr ⟨List.mem_append_right _ h, h', h''⟩
  · intro hx hn; exact k3 ((List.mem_append.1 hx).resolve_left fun e => (ht _ e).1.2.2.1 rfl) hn
  · intro hx hn; exact k4 ((List.mem_append.1 hx).resolve_left fun e => (ht _ e).1.2.2.2.1 rfl) hn
  · intro hx hn; exact k5 ((List.mem_append.1 hx).resolve_left fun e => (ht _ e).1.2.2.2.2 rfl) hn

theorem plain_code (t : Bytes) : Plain (.code t) := by simp [Plain, Purpose]
theorem plain_testW (t : Bytes) : Plain (.testW t) := by simp [Plain, Purpose]

theorem Tells.none {ans codes} {n : Nat} (hn : n ≠ 0) : Tells ans codes ([], n) := by
  refine ⟨by simp [hn], ?_, ?_, ?_, ?_⟩ <;> simp

theorem Tells.assign {arith ans codes v name text} {k : Int → Vars → Full.Run} (h : ∀ i w, Tells ans codes (k i w)) :
    Tells ans codes (Full.assign arith v name text k) := by
  have hf : ∀ x ∈ (arith v text).1.map Cmd.code, Plain x ∧ ((∃ p, x = .testW p) ∨ x = .sttyGet ∨ ∃ c, x = .code c) := by
    intro x hx
    obtain ⟨c, _, rfl⟩ := List.mem_map.1 hx
    exact ⟨plain_code c, .inr (.inr ⟨c, rfl⟩)⟩
  unfold Full.assign
  cases (arith v text).2 with
  | none => simpa using Tells.front hf (Tells.none (n := 1) (by decide))
  | some r => exact Tells.front hf (h _ _)

theorem Tells.realUid {ans codes su} {k : Bytes → Full.Run} (hcodes : ∀ c, codes c ≠ 0)
    (h : ∀ out, Tells ans codes (k out)) : Tells ans codes (Full.realUid ans codes su k) := by
  unfold Full.realUid
  split
  · exact Tells.cmd hcodes (by simp [Plain, Purpose]) h
  · exact h _

/-- The last command. -/
theorem Tells.final {ans codes c} {n : Nat} (hcodes : ∀ c, codes c ≠ 0)
    (hp : (Purpose c ∧ n = 0) ∨ (c = .sayOwn ∧ n = 1) ∨ (c = .usage ∧ n = 1) ∨ (c = .sayMode ∧ n = 2)) :
    Tells ans codes (Full.cmd ans codes c fun _ => Full.done n) := by
  unfold Full.cmd Full.done
  have hr : c ≠ .sttyRestore := by
    rintro rfl
    simp [Purpose] at hp
  have hpn : Purpose c ↔ n = 0 := by
    rcases hp with ⟨h, h'⟩ | ⟨rfl, rfl⟩ | ⟨rfl, rfl⟩ | ⟨rfl, rfl⟩
    · simp [h, h']
    all_goals simp [Purpose]
  cases hc : ans c with
  | none =>
    refine ⟨?_, ?_, ?_, ?_, ?_⟩
    · simp only [hcodes c, List.mem_singleton, false_iff]
      rintro ⟨⟨x, rfl, hx, hn⟩, _⟩
      exact hn hc
    · intro x hx _ _ _ _
      rw [List.mem_singleton] at hx; subst hx; exact .inl rfl
    all_goals
      intro hx hn
      rw [List.mem_singleton] at hx
      subst hx
      exact absurd hc hn
  | some out =>
    refine ⟨?_, ?_, ?_, ?_, ?_⟩
    · simp only [List.mem_singleton]
      constructor
      · intro hn
        exact ⟨⟨c, rfl, hpn.2 hn, by simp [hc]⟩, fun h => absurd h.symm hr⟩
      · rintro ⟨⟨x, rfl, hx, _⟩, _⟩
        exact hpn.1 hx
    · intro x hx hn _ _ _
      rw [List.mem_singleton] at hx; subst hx; rw [hc] at hn; cases hn
    all_goals
      intro hx hn
      rw [List.mem_singleton] at hx
      subst hx
      simpa [Purpose] using hp

theorem Tells.pair {ans codes path} (hcodes : ∀ c, codes c ≠ 0) : Tells ans codes (Full.pair ans codes path) := by
  unfold Full.pair Full.cmd Full.done
  cases h0 : ans .sttyRestore <;> cases h1 : ans .sttyRaw <;> cases h2 : ans .sttyIntr <;> cases h3 : ans .clear <;>
    cases h4 : ans (.socat path) <;> refine ⟨?_, ?_, ?_, ?_, ?_⟩ <;>
    simp [Purpose, hcodes, h0, h1, h2, h3, h4]

/-- The status `r.2` is 0, 1, 2 after the message about the mode, or that of a command that failed. -/
def Among (ans : Answers) (codes : Codes) (r : Full.Run) : Prop :=
  r.2 = 0 ∨ r.2 = 1 ∨ (r.2 = 2 ∧ .sayMode ∈ r.1 ∧ ans .sayMode ≠ none) ∨
    ∃ x ∈ r.1, ans x = none ∧ (∀ p, x ≠ .testW p) ∧ x ≠ .sttyGet ∧ (∀ t, x ≠ .code t) ∧ r.2 = codes x

/-- Some commands in front. -/
theorem Among.front {ans codes} {t : List Cmd} {r : Full.Run} (h : Among ans codes r) :
    Among ans codes (t ++ r.1, r.2) := by
  rcases h with h | h | ⟨h, h1, h2⟩ | ⟨x, hx, h⟩
  · exact .inl h
  · exact .inr (.inl h)
  · exact .inr (.inr (.inl ⟨h, List.mem_append_right _ h1, h2⟩))
  · exact .inr (.inr (.inr ⟨x, List.mem_append_right _ hx, h⟩))

theorem Among.cmd {ans codes c} {k : Bytes → Full.Run} (hp : (∀ p, c ≠ .testW p) ∧ c ≠ .sttyGet ∧ ∀ t, c ≠ .code t)
    (h : ∀ out, ans c ≠ none → Among ans codes (c :: (k out).1, (k out).2)) :
    Among ans codes (Full.cmd ans codes c k) := by
  unfold Full.cmd
  cases hc : ans c with
  | none => exact .inr (.inr (.inr ⟨c, by simp, hc, hp.1, hp.2.1, hp.2.2, rfl⟩))
  | some out => exact h out (by simp [hc])

theorem Among.next {ans codes c} {k : Bytes → Full.Run} (hp : (∀ p, c ≠ .testW p) ∧ c ≠ .sttyGet ∧ ∀ t, c ≠ .code t)
    (h : ∀ out, Among ans codes (k out)) : Among ans codes (Full.cmd ans codes c k) :=
  .cmd hp fun out _ => Among.front (t := [c]) (h out)

theorem Among.assign {arith ans codes v name text} {k : Int → Vars → Full.Run} (h : ∀ i w, Among ans codes (k i w)) :
    Among ans codes (Full.assign arith v name text k) := by
  unfold Full.assign
  cases (arith v text).2 with
  | none => exact .inr (.inl rfl)
  | some r => exact Among.front (h _ _)

theorem Among.realUid {ans codes su} {k : Bytes → Full.Run} (h : ∀ out, Among ans codes (k out)) :
    Among ans codes (Full.realUid ans codes su k) := by
  unfold Full.realUid
  split
  · exact .next (by simp) h
  · exact h _

theorem Among.pair {ans codes path} : Among ans codes (Full.pair ans codes path) := by
  have h : Among ans codes (Full.cmd ans codes .sttyRaw fun _ => Full.cmd ans codes .sttyIntr fun _ =>
      Full.cmd ans codes .clear fun _ => Full.cmd ans codes (.socat path) fun _ => Full.done 0) := by
    refine .next (by simp) fun _ => .next (by simp) fun _ => .next (by simp) fun _ => .next (by simp) fun _ => ?_
    exact .inl rfl
  unfold Full.pair
  simp only
  cases hr : ans .sttyRestore with
  | none => exact .inr (.inr (.inr ⟨.sttyRestore, by simp, hr, by simp, by simp, by simp, by simp⟩))
  | some out =>
    rcases h with h | h | ⟨h, h1, h2⟩ | ⟨x, hx, h1, h2, h3, h4, h5⟩
    · exact .inl (by simpa using h)
    · exact .inr (.inl (by simpa using h))
    · exact .inr (.inr (.inl ⟨by simpa using h, by simp [h1], h2⟩))
    · exact .inr (.inr (.inr ⟨x, by simp [hx], h1, h2, h3, h4, by simpa using h5⟩))

end Approve

/-- C80: the commands are those of Model/Extras (C48, C57, C62). -/
theorem C80_commands (arith : Arith) (ans : Answers) (codes : Codes) (su : Vars) (args : List Bytes) :
    (Full.script arith ans codes su args).1 = script arith ans su args := by
  have two : ∀ uid pid, (Full.script arith ans codes su [uid, pid]).1 = script arith ans su [uid, pid] := by
    intro uid pid
    unfold Full.script script Full.main Approve.main
    refine full_assign fun uid v1 => ?_
    refine full_assign fun pid v2 => ?_
    refine full_realUid fun ruidText => ?_
    refine full_assign fun ruid v3 => ?_
    refine full_cmd fun uidText => ?_
    refine full_assign fun socketUid v4 => ?_
    refine full_cmd fun gidText => ?_
    refine full_assign fun socketGid _ => ?_
    refine full_cmd fun user => ?_
    refine full_cmd fun group => ?_
    refine full_cmd fun modeText => ?_
    split
    · exact full_last
    · simp only
      congr 1
      split
      · exact full_pair
      · cases octal modeText with
        | none => rfl
        | some mode =>
          simp only
          split
          · exact full_last
          · split
            · exact full_last
            · exact full_last
  match args with
  | []                 => exact full_last
  | [_]                => exact full_last
  | [uid, pid]         => exact two uid pid
  | _ :: _ :: _ :: _   => exact full_last

theorem tells_script {arith : Arith} {ans : Answers} {codes : Codes} {su : Vars} {args : List Bytes}
    (hcodes : ∀ c, codes c ≠ 0) : Tells ans codes (Full.script arith ans codes su args) := by
  have two : ∀ uid pid, Tells ans codes (Full.script arith ans codes su [uid, pid]) := by
    intro uid pid
    unfold Full.script Full.main
    refine .assign fun uid v1 => ?_
    refine .assign fun pid v2 => ?_
    refine .realUid hcodes fun ruidText => ?_
    refine .assign fun ruid v3 => ?_
    refine .cmd hcodes (by simp [Plain, Purpose]) fun uidText => ?_
    refine .assign fun socketUid v4 => ?_
    refine .cmd hcodes (by simp [Plain, Purpose]) fun gidText => ?_
    refine .assign fun socketGid _ => ?_
    refine .cmd hcodes (by simp [Plain, Purpose]) fun user => ?_
    refine .cmd hcodes (by simp [Plain, Purpose]) fun group => ?_
    refine .cmd hcodes (by simp [Plain, Purpose]) fun modeText => ?_
    split
    · exact .final hcodes (by simp)
    · refine Tells.front (t := [.testW (socket socketDir uid pid)]) ?_ ?_
      · intro x hx
        rw [List.mem_singleton] at hx; subst hx
        exact ⟨plain_testW _, .inl ⟨_, rfl⟩⟩
      split
      · exact .pair hcodes
      · cases octal modeText with
        | none => exact .none (by decide)
        | some mode =>
          simp only
          split
          · exact .final hcodes (by simp [Purpose])
          · split
            · exact .final hcodes (by simp [Purpose])
            · exact .final hcodes (by simp)
  match args with
  | []                 => exact .final hcodes (by simp)
  | [_]                => exact .final hcodes (by simp)
  | [uid, pid]         => exact two uid pid
  | _ :: _ :: _ :: _   => exact .final hcodes (by simp)

/-- C80: the script reports success if and only if what it was called for succeeded — the connection, or the script
under another identity — and the terminal could be restored if it was changed. -/
theorem C80_success (arith : Arith) (ans : Answers) (codes : Codes) (su : Vars) (args : List Bytes)
    (hcodes : ∀ c, codes c ≠ 0) :
    (Full.script arith ans codes su args).2 = 0 ↔
      (∃ x ∈ script arith ans su args, Purpose x ∧ ans x ≠ none) ∧
      (.sttyRestore ∈ script arith ans su args → ans .sttyRestore ≠ none) := by
  rw [← C80_commands arith ans codes su args]
  exact (tells_script hcodes).success

/-- C80: it ends with the status of the command that failed (other than the test for write permission and `stty -g`),
or of the restoring `stty` if that failed, too. -/
theorem C80_failure (arith : Arith) (ans : Answers) (codes : Codes) (su : Vars) (args : List Bytes)
    (hcodes : ∀ c, codes c ≠ 0) (x : Cmd) (hx : x ∈ script arith ans su args) (hn : ans x = none)
    (h1 : ∀ p, x ≠ .testW p) (h2 : x ≠ .sttyGet) (h3 : ∀ t, x ≠ .code t) :
    (Full.script arith ans codes su args).2 = codes x ∨
    (.sttyRestore ∈ script arith ans su args ∧ ans .sttyRestore = none ∧
      (Full.script arith ans codes su args).2 = codes .sttyRestore) := by
  rw [← C80_commands arith ans codes su args] at hx ⊢
  exact (tells_script hcodes).failure x hx hn h1 h2 h3

/-- C80: it ends with status 1 after refusing a user's own session and after the usage message, and with status 2 if
nobody may write to the socket. -/
theorem C80_refused (arith : Arith) (ans : Answers) (codes : Codes) (su : Vars) (args : List Bytes)
    (hcodes : ∀ c, codes c ≠ 0) :
    (.sayOwn ∈ script arith ans su args → ans .sayOwn ≠ none → (Full.script arith ans codes su args).2 = 1) ∧
    (.usage ∈ script arith ans su args → ans .usage ≠ none → (Full.script arith ans codes su args).2 = 1) ∧
    (.sayMode ∈ script arith ans su args → ans .sayMode ≠ none → (Full.script arith ans codes su args).2 = 2) := by
  rw [← C80_commands arith ans codes su args]
  exact ⟨(tells_script hcodes).own, (tells_script hcodes).usage, (tells_script hcodes).mode⟩

/-- C80: every other status is 1, or that of a command that failed: 2 on its own means that nobody may write to the
socket. -/
theorem C80_otherwise (arith : Arith) (ans : Answers) (codes : Codes) (su : Vars) (args : List Bytes) :
    (Full.script arith ans codes su args).2 = 0 ∨ (Full.script arith ans codes su args).2 = 1 ∨
    ((Full.script arith ans codes su args).2 = 2 ∧ .sayMode ∈ script arith ans su args ∧ ans .sayMode ≠ none) ∨
    ∃ x ∈ script arith ans su args, ans x = none ∧ (∀ p, x ≠ .testW p) ∧ x ≠ .sttyGet ∧ (∀ t, x ≠ .code t) ∧
      (Full.script arith ans codes su args).2 = codes x := by
  rw [← C80_commands arith ans codes su args]
  change Among ans codes (Full.script arith ans codes su args)
  have last : ∀ {c n}, (∀ p, c ≠ .testW p) ∧ c ≠ .sttyGet ∧ (∀ t, c ≠ .code t) → n = 0 ∨ n = 1 →
      Among ans codes (Full.cmd ans codes c fun _ => Full.done n) := fun hc hn =>
    .next hc fun _ => hn.elim .inl fun h => .inr (.inl h)
  have two : ∀ uid pid, Among ans codes (Full.script arith ans codes su [uid, pid]) := by
    intro uid pid
    unfold Full.script Full.main
    refine .assign fun uid v1 => .assign fun pid v2 => .realUid fun ruidText => .assign fun ruid v3 => ?_
    refine .next (by simp) fun uidText => .assign fun socketUid v4 => .next (by simp) fun gidText => ?_
    refine .assign fun socketGid _ => .next (by simp) fun user => .next (by simp) fun group => ?_
    refine .next (by simp) fun modeText => ?_
    split
    · exact last (by simp) (.inr rfl)
    · refine Among.front (t := [.testW (socket socketDir uid pid)]) ?_
      split
      · exact .pair
      · cases octal modeText with
        | none => exact .inr (.inl rfl)
        | some mode =>
          simp only
          split
          · exact last (by simp) (.inl rfl)
          · split
            · exact last (by simp) (.inl rfl)
            · exact .cmd (by simp) fun _ hn => .inr (.inr (.inl ⟨rfl, by simp [Full.done], hn⟩))
  match args with
  | []                 => exact last (by simp) (.inr rfl)
  | [_]                => exact last (by simp) (.inr rfl)
  | [uid, pid]         => exact two uid pid
  | _ :: _ :: _ :: _   => exact last (by simp) (.inr rfl)

/-- C80: if the script reports success to the approver, then it, or a run of it that it started through sudo, was
connected to the socket of the session it was called for, and the connection ended without an error. -/
theorem C80_connected {arith : Arith} (ha : ReadsDecimals arith) {su : Vars} {args : List Bytes}
    {runs : List (Answers × List Cmd)}
    (h : Finished (fun su ans codes args => Full.script arith ans codes su args) su args runs 0) :
    ∃ uidArg pidArg uid pid between after, args = [uidArg, pidArg] ∧ Assigns arith su (b! "uid") uidArg uid between ∧
      Assigns arith between (b! "pid") pidArg pid after ∧
      ∃ r ∈ runs, .socat (b! "/var/run/sudo_pair/" ++ decimalInt uid ++ b! "." ++ decimalInt pid ++ b! ".sock") ∈ r.2 ∧
        r.1 (.socat (b! "/var/run/sudo_pair/" ++ decimalInt uid ++ b! "." ++ decimalInt pid ++ b! ".sock")) ≠ none := by
  rw [decimalInt_fun]
  have key : ∀ {su args runs n}, Finished (fun su ans codes args => Full.script arith ans codes su args) su args runs n →
      n = 0 → ∃ uid pid v, Evaluates arith su args uid pid v ∧
        ∃ r ∈ runs, .socat (socket socketDir uid pid) ∈ r.2 ∧ r.1 (.socat (socket socketDir uid pid)) ≠ none := by
    intro su args runs n h
    induction h with
    | @here su ans codes args hcodes hno =>
      intro h0
      obtain ⟨⟨x, hx, hp, hn⟩, _⟩ := (C80_success arith ans codes su args hcodes).1 h0
      rcases hp with ⟨path, rfl⟩ | ⟨name, uid, pid, hxe⟩
      · obtain ⟨uid, pid, _, _, v, _, h1, _, _, _, h4, _⟩ := script_mem hx (.inl ⟨path, rfl⟩)
        obtain rfl := h4 path rfl
        refine ⟨uid, pid, v, h1, _, List.mem_singleton_self _, ?_, hn⟩
        simp only [C80_commands]
        exact hx
      · refine absurd (hno x ?_ name uid pid hxe) hn
        simp only [C80_commands]
        exact hx
    | @there su su' ans codes args x name uid pid rest m hcodes hx hxe hrest hm _ ih =>
      intro h0
      simp only [C80_commands] at hx
      obtain ⟨uid', pid', _, _, v, _, h1, _, _, _, _, h4⟩ :=
        script_mem hx (.inr ⟨name, uid, pid, hxe⟩)
      obtain ⟨rfl, rfl⟩ := h4 name uid pid hxe
      have hm0 : m = 0 := by
        refine Classical.byContradiction fun hne => ?_
        rcases C80_failure arith ans codes su args hcodes x hx (hm.2 hne) (by rintro p rfl; simp at hxe)
          (by rintro rfl; simp at hxe) (by rintro p rfl; simp at hxe) with h5 | ⟨_, _, h5⟩
        · exact hcodes _ (h5.symm.trans h0)
        · exact hcodes _ (h5.symm.trans h0)
      obtain ⟨uid2, pid2, _, k1, r, k4, k5⟩ := ih hm0
      rw [decimalInt_fun] at k1
      obtain ⟨_, _, _, _, r1, r2⟩ := id h1
      obtain ⟨rfl, rfl, _⟩ := evaluates_decimal ha (assigns_inRange ha r1) (assigns_inRange ha r2) k1
      exact ⟨_, _, v, h1, r, .tail _ k4, k5⟩
  obtain ⟨uid, pid, after, ⟨uidArg, pidArg, between, h1, h2, h3⟩, r, h4, h5⟩ := key h rfl
  have hs : socket socketDir uid pid = b! "/var/run/sudo_pair/" ++ decInt uid ++ b! "." ++ decInt pid ++ b! ".sock" := by
    simp [socket, socketDir]
  rw [hs] at h5
  exact ⟨uidArg, pidArg, uid, pid, between, after, h1, h2, h3, r, h4, h5⟩

/-- Everything works: status 0.  The own session: 1.  The connection is refused: socat's status. -/
example :
    Full.script sampleArith sampleAnswers (fun _ => 7) (onlySudoUid (some (b! "0"))) [b! "1000", b! "5"] =
      (script sampleArith sampleAnswers (onlySudoUid (some (b! "0"))) [b! "1000", b! "5"], 0) ∧
    (Full.script sampleArith sampleAnswers (fun _ => 7) (onlySudoUid (some (b! "1000"))) [b! "1000", b! "5"]).2 = 1 ∧
    (Full.script sampleArith (fun c => match c with | .socat _ => none | c => sampleAnswers c) (fun _ => 7)
      (onlySudoUid (some (b! "0"))) [b! "1000", b! "5"]).2 = 7 := by
  decide +kernel

/-- A success in two runs: the first may not write to the socket and calls itself through sudo. -/
example : ∃ runs, Finished (fun su ans codes args => Full.script sampleArith ans codes su args)
    (onlySudoUid (some (b! "0"))) [b! "1000", b! "5"] runs 0 ∧
    runs.length = 2 := by
  have h1 : (Full.script sampleArith sampleAnswers (fun _ => 7) (onlySudoUid (some (b! "0"))) [decimalInt 1000, decimalInt 5]).2 = 0 := by
    decide +kernel
  have h2 : (Full.script sampleArith lockedAnswers (fun _ => 7) (onlySudoUid (some (b! "0"))) [b! "1000", b! "5"]).2 = 0 := by
    decide +kernel
  have h3 : Cmd.sudoUser (b! "0") 1000 5 ∈
      (Full.script sampleArith lockedAnswers (fun _ => 7) (onlySudoUid (some (b! "0"))) [b! "1000", b! "5"]).1 := by
    decide +kernel
  have h4 : ∀ x ∈ (Full.script sampleArith sampleAnswers (fun _ => 7) (onlySudoUid (some (b! "0"))) [decimalInt 1000, decimalInt 5]).1,
      looks x = true ∨ x ∈ [Cmd.testW (b! "/var/run/sudo_pair/1000.5.sock"), .sttyGet, .sttyRaw, .sttyIntr, .clear,
        .socat (b! "/var/run/sudo_pair/1000.5.sock"), .sttyRestore] := by
    decide +kernel
  have inner := Finished.here (one := fun su ans codes args => Full.script sampleArith ans codes su args)
    (su := onlySudoUid (some (b! "0"))) (ans := sampleAnswers) (codes := fun _ => 7) (args := [decimalInt 1000, decimalInt 5])
    (fun _ => by decide) (by
      rintro x hx name uid pid (rfl | rfl) <;>
      · have := h4 _ hx
        simp [looks] at this)
  have outer := Finished.there (one := fun su ans codes args => Full.script sampleArith ans codes su args)
    (su := onlySudoUid (some (b! "0"))) (ans := lockedAnswers) (codes := fun _ => 7) (args := [b! "1000", b! "5"])
    (fun _ => by decide) h3 (.inl rfl) inner (by rw [h1]; decide) (fun h => absurd h1 h)
  rw [h2] at outer
  exact ⟨_, outer, rfl⟩

end SudoPair
