import Verif.Spec.Tty
import Verif.Props.Status
import Verif.Spec.Approval
/-
C88: the approver's terminal.
-/
namespace SudoPair
open Spec Approve

namespace Approve

/-- Commands that leave the terminal and the connection alone. -/
def Aside (c : Cmd) : Prop :=
  c ≠ .sttyGet ∧ c ≠ .sttyRaw ∧ c ≠ .sttyIntr ∧ c ≠ .sttyRestore ∧ ∀ path, c ≠ .socat path

/-- A list of commands that has to do with the terminal only at its end, where it connects. -/
def AtEnd (ans : Answers) (cs : List Cmd) : Prop :=
  ∃ pre, (∀ c ∈ pre, Aside c) ∧ (cs = pre ∨ ∃ path, cs = pre ++ pair ans path)

theorem AtEnd.front {ans : Answers} {pre cs : List Cmd} (hp : ∀ c ∈ pre, Aside c) (h : AtEnd ans cs) :
    AtEnd ans (pre ++ cs) := by
  obtain ⟨q, hq, h⟩ := h
  have hpq : ∀ c ∈ pre ++ q, Aside c := fun c hc => (List.mem_append.1 hc).elim (hp c) (hq c)
  rcases h with rfl | ⟨path, rfl⟩
  · exact ⟨_, hpq, .inl rfl⟩
  · exact ⟨_, hpq, .inr ⟨path, by rw [List.append_assoc]⟩⟩

theorem AtEnd.cons {ans : Answers} {c : Cmd} {cs : List Cmd} (hc : Aside c) (h : AtEnd ans cs) : AtEnd ans (c :: cs) :=
  AtEnd.front (pre := [c]) (by simpa using hc) h

theorem AtEnd.nil {ans : Answers} : AtEnd ans [] := ⟨[], by simp, .inl rfl⟩

theorem AtEnd.one {ans : Answers} {c : Cmd} (h : Aside c) : AtEnd ans [c] := ⟨[c], by simpa using h, .inl rfl⟩

theorem AtEnd.cmd {ans : Answers} {c : Cmd} {k} (h : Aside c) (hk : ∀ out, AtEnd ans (k out)) : AtEnd ans (cmd ans c k) := by
  unfold Approve.cmd
  refine AtEnd.front (pre := [c]) (by simpa using h) ?_
  cases ans c with
  | none => exact .nil
  | some out => exact hk out

theorem AtEnd.assign {arith : Arith} {ans : Answers} {v name text k} (hk : ∀ i w, AtEnd ans (k i w)) :
    AtEnd ans (assign arith v name text k) := by
  unfold Approve.assign
  refine AtEnd.front ?_ ?_
  · intro c hc
    obtain ⟨t, _, rfl⟩ := List.mem_map.1 hc
    simp [Aside]
  · cases (arith v text).2 with
    | none => exact .nil
    | some r => exact hk _ _

theorem AtEnd.realUid {ans : Answers} {su k} (hk : ∀ out, AtEnd ans (k out)) : AtEnd ans (realUid ans su k) := by
  unfold Approve.realUid
  split
  · exact .cmd (by simp [Aside]) hk
  · exact hk _

theorem atEnd_script (arith : Arith) (ans : Answers) (su : Vars) (args : List Bytes) : AtEnd ans (script arith ans su args) := by
  unfold script
  split
  · unfold Approve.main
    refine .assign fun uid v1 => ?_
    refine .assign fun pid v2 => ?_
    refine .realUid fun ruidText => ?_
    refine .assign fun ruid v3 => ?_
    refine .cmd (by simp [Aside]) fun uidText => ?_
    refine .assign fun socketUid v4 => ?_
    refine .cmd (by simp [Aside]) fun gidText => ?_
    refine .assign fun socketGid _ => ?_
    refine .cmd (by simp [Aside]) fun user => ?_
    refine .cmd (by simp [Aside]) fun group => ?_
    refine .cmd (by simp [Aside]) fun modeText => ?_
    split
    · exact .one (by simp [Aside])
    · refine AtEnd.cons (by simp [Aside]) ?_
      split
      · exact ⟨[], by simp, .inr ⟨_, rfl⟩⟩
      · split
        · exact .nil
        · split
          · exact .one (by simp [Aside])
          · split
            · exact .one (by simp [Aside])
            · exact .one (by simp [Aside])
  · exact .one (by simp [Aside])

theorem aside_fold {fail ans} {cs : List Cmd} (h : ∀ c ∈ cs, Aside c) (s : Tty × Option Tty) :
    cs.foldl (sttyStep fail ans) s = s := by
  induction cs generalizing s with
  | nil => rfl
  | cons c cs ih =>
    have hc : sttyStep fail ans s c = s := by
      obtain ⟨h1, h2, h3, h4, _⟩ := h c (.head _)
      cases c <;> first | rfl | contradiction
    rw [List.foldl_cons, hc]
    exact ih (fun c hc => h c (.tail _ hc)) s

end Approve

/-- The terminal as the script sets it. -/
def paired (t : Tty) : Tty := { t with icanon := false, echo := false, intr := ctrl 'D' }

/-- C88: whenever the approver is connected to the session, their terminal hands over every key at once, shows none, and
interrupts on Ctrl-D. -/
theorem C88_connected (fail : Tty → Tty) (arith : Arith) (ans : Answers) (su : Vars) (args : List Bytes) (t : Tty)
    {before after : List Cmd} {path : Bytes} (h : script arith ans su args = before ++ .socat path :: after) :
    ttyAfter fail ans t before = { t with icanon := false, echo := false, intr := 4 } := by
  obtain ⟨pre, hpre, hs⟩ := atEnd_script arith ans su args
  have hno : ∀ {l : List Cmd}, (∀ c ∈ l, Aside c) → .socat path ∉ l := fun hl hc => (hl _ hc).2.2.2.2 path rfl
  rcases hs with hs | ⟨path', hs⟩
  · exact absurd (show .socat path ∈ pre by rw [← hs, h]; simp) (hno hpre)
  rw [h] at hs
  -- the connection is in the last part
  have hsplit : ∃ mid, before = pre ++ mid ∧ pair ans path' = mid ++ .socat path :: after := by
    rcases List.append_eq_append_iff.1 hs with ⟨m, rfl, h2⟩ | ⟨m, rfl, h2⟩
    · cases m with
      | nil => exact ⟨[], by simp, by simpa using h2.symm⟩
      | cons x m =>
        simp only [List.cons_append, List.cons.injEq] at h2
        obtain ⟨rfl, _⟩ := h2
        exact absurd (by simp) (hno hpre)
    · exact ⟨m, rfl, h2⟩
  obtain ⟨mid, rfl, hmid⟩ := hsplit
  unfold ttyAfter
  rw [List.foldl_append, aside_fold hpre]
  have other : ∀ {x : Cmd} {r m : List Cmd}, x ≠ .socat path → x :: r = m ++ .socat path :: after →
      ∃ m', m = x :: m' ∧ r = m' ++ .socat path :: after := by
    intro x r m hx he
    cases m with
    | nil => simp at he; exact absurd he.1 hx
    | cons y m =>
      simp only [List.cons_append, List.cons.injEq] at he
      exact ⟨m, by rw [he.1], he.2⟩
  have hin : .socat path ∈ pair ans path' := by rw [hmid]; simp
  unfold pair cmd at hmid hin
  cases h1 : ans .sttyRaw with
  | none => simp [h1] at hin
  | some o1 =>
  cases h2 : ans .sttyIntr with
  | none => simp [h1, h2] at hin
  | some o2 =>
  cases h3 : ans .clear with
  | none => simp [h1, h2, h3] at hin
  | some o3 =>
  simp only [h1, h2, h3, List.cons_append, List.nil_append] at hmid
  obtain ⟨m1, e1, hmid1⟩ := other (by simp) hmid
  obtain ⟨m2, e2, hmid2⟩ := other (by simp) hmid1
  obtain ⟨m3, e3, hmid3⟩ := other (by simp) hmid2
  obtain ⟨m4, e4, hmid4⟩ := other (by simp) hmid3
  have hlast : m4 = [] := by
    cases m4 with
    | nil => rfl
    | cons y m =>
      simp only [List.cons_append, List.cons.injEq] at hmid4
      obtain ⟨m', _, hm'⟩ := other (by simp) hmid4.2
      cases m' <;> cases hm'
  rw [e1, e2, e3, e4, hlast]
  simp [sttyStep, h1, h2]
  rfl

/-- C88: when the script ends, wherever it ends, the terminal is as it was, if its settings could be read in the
beginning and be set in the end. -/
theorem C88_restored (fail : Tty → Tty) (arith : Arith) (ans : Answers) (su : Vars) (args : List Bytes) (t : Tty)
    (h1 : ans .sttyGet ≠ none) (h2 : ans .sttyRestore ≠ none) : ttyAfter fail ans t (script arith ans su args) = t := by
  obtain ⟨pre, hpre, hs⟩ := atEnd_script arith ans su args
  unfold ttyAfter
  rcases hs with hs | ⟨path, hs⟩
  · rw [hs, aside_fold hpre]
  rw [hs, List.foldl_append, aside_fold hpre]
  unfold pair cmd
  obtain ⟨g, hg⟩ := Option.ne_none_iff_exists'.1 h1
  obtain ⟨r, hr⟩ := Option.ne_none_iff_exists'.1 h2
  cases ans .sttyRaw <;> cases ans .sttyIntr <;> cases ans .clear <;> simp [sttyStep, hg, hr]

/-- C88: if the settings could not be read, though, the script does not stop, and leaves the terminal changed. -/
theorem C88_unread (fail : Tty → Tty) (arith : Arith) (ans : Answers) (su : Vars) (args : List Bytes) (t : Tty)
    {path : Bytes} (h : .socat path ∈ script arith ans su args) (h1 : ans .sttyGet = none) (h2 : ans .sttyRestore ≠ none) :
    ttyAfter fail ans t (script arith ans su args) = { t with icanon := false, echo := false, intr := 4 } := by
  obtain ⟨before, after, he⟩ := List.append_of_mem h
  have hc := C88_connected fail arith ans su args t he
  obtain ⟨pre, hpre, hs⟩ := atEnd_script arith ans su args
  have hno : .socat path ∉ pre := fun hc => (hpre _ hc).2.2.2.2 path rfl
  rcases hs with hs | ⟨path', hs⟩
  · rw [hs] at h; exact absurd h hno
  rw [hs] at h ⊢
  have hin := (List.mem_append.1 h).resolve_left hno
  unfold ttyAfter
  rw [List.foldl_append, aside_fold hpre]
  obtain ⟨r, hr⟩ := Option.ne_none_iff_exists'.1 h2
  unfold pair cmd at hin ⊢
  cases k1 : ans .sttyRaw <;> cases k2 : ans .sttyIntr <;> cases k3 : ans .clear <;> simp [k1, k2, k3] at hin
  simp [sttyStep, h1, hr, k1, k2]
  rfl

/-- C88: the same for the runs that the script starts through sudo, taken together. -/
theorem C88_runs (fail : Tty → Tty) {arith : Arith} {su : Vars} {args : List Bytes} {runs : List (Answers × List Cmd)} {n : Nat}
    (h : Finished (fun su ans codes args => Full.script arith ans codes su args) su args runs n)
    (h1 : ∀ r ∈ runs, r.1 .sttyGet ≠ none ∧ r.1 .sttyRestore ≠ none) (t : Tty) :
    runs.foldl (fun t r => ttyAfter fail r.1 t r.2) t = t := by
  induction h generalizing t with
  | @here su ans codes args hcodes hno =>
    obtain ⟨k1, k2⟩ := h1 _ (List.mem_singleton_self _)
    rw [List.foldl_cons, List.foldl_nil]
    simp only [C80_commands]
    exact C88_restored fail arith ans su args t k1 k2
  | @there su su' ans codes args x name uid pid rest m hcodes hx hxe hrest hm hm' ih =>
    obtain ⟨k1, k2⟩ := h1 _ (.head _)
    rw [List.foldl_cons]
    simp only [C80_commands]
    rw [C88_restored fail arith ans su args t k1 k2]
    exact ih (fun r hr => h1 r (.tail _ hr)) t

theorem takeWhile_all {p : UInt8 → Bool} {l : Bytes} (h : ∀ x ∈ l, p x = true) : l.takeWhile p = l := by
  rw [← List.append_nil l, List.takeWhile_append_of_pos h]
  rfl

theorem paired_kills {t : Tty} (hs : t.isig = true) (k : UInt8) : (paired t).kills k = true ↔ k ≠ 0 ∧ (k = 4 ∨ k = t.quit) := by
  have : (paired t).intr = 4 := rfl
  unfold Tty.kills
  rw [this]
  simp [paired, hs]

theorem paired_stops {t : Tty} (hs : t.isig = true) (k : UInt8) : (paired t).stops k = true ↔ k ≠ 0 ∧ k = t.susp := by
  unfold Tty.stops
  simp [paired, hs]

/-- C88: on that terminal, keys other than Ctrl-D and those for quit and suspend go to the session at once, and are not
shown; Ctrl-C is one of them, unless it is the one for quit or suspend.  Ctrl-D ends the connection. -/
theorem C88_keys {t : Tty} (hs : t.isig = true) (hd : t.susp ≠ 4) {keys : Bytes}
    (hk : ∀ k ∈ keys, k ≠ ctrl 'D' ∧ k ≠ t.quit ∧ k ≠ t.susp) :
    (∀ rest, (paired t).shows (keys ++ rest) = []) ∧
    (paired t).handsOver keys = keys ∧ ¬ (paired t).ends keys ∧
    ∀ rest, (paired t).handsOver (keys ++ ctrl 'D' :: rest) = keys ∧ (paired t).ends (keys ++ ctrl 'D' :: rest) := by
  have hD : ctrl 'D' = 4 := by decide
  have plain : ∀ k ∈ keys, (paired t).kills k = false ∧ (paired t).stops k = false := by
    intro k hk'
    obtain ⟨h1, h2, h3⟩ := hk k hk'
    rw [← Bool.not_eq_true, ← Bool.not_eq_true, paired_kills hs, paired_stops hs]
    rw [hD] at h1
    exact ⟨fun h => h.2.elim h1 h2, fun h => h3 h.2⟩
  have hkill : (paired t).kills (ctrl 'D') = true := (paired_kills hs _).2 ⟨by decide, .inl hD⟩
  refine ⟨fun rest => rfl, ?_, ?_, ?_⟩
  · show keys.takeWhile _ = keys
    refine takeWhile_all fun k hk' => ?_
    obtain ⟨h1, h2⟩ := plain k hk'
    simp [h1, h2]
  · rintro ⟨before, k, after, rfl, h1, _⟩
    rw [(plain k (by simp)).1] at h1
    cases h1
  · intro rest
    refine ⟨?_, keys, _, rest, rfl, hkill, fun k hk' => (plain k hk').2⟩
    show (keys ++ _ :: rest).takeWhile _ = keys
    rw [List.takeWhile_append_of_pos]
    · rw [List.takeWhile_cons_of_neg (by simp [hkill]), List.append_nil]
    · intro k hk'
      obtain ⟨h1, h2⟩ := plain k hk'
      simp [h1, h2]

/-- C88: but the keys for quit and suspend still send signals. -/
theorem C88_quit_suspend {t : Tty} (hs : t.isig = true) :
    (t.quit ≠ 0 → (paired t).kills t.quit = true) ∧ (t.susp ≠ 0 → (paired t).stops t.susp = true) :=
  ⟨fun h => (paired_kills hs _).2 ⟨h, .inr rfl⟩, fun h => (paired_stops hs _).2 ⟨h, rfl⟩⟩

theorem received_append (fd : Nat) (h h' : Hist) : received fd (h ++ h') = received fd h ++ received fd h' :=
  List.flatMap_append

/-- C88: a session approved from that terminal was approved by the first key pressed: a `y` or `Y`. -/
theorem C88_answer {t : Tty} {sp pp d : Bytes} {vars} {fd : Nat} {h : Hist} {keys : Bytes}
    (hap : Approved sp pp d vars fd h) (hr : received fd h <+: (paired t).handsOver keys) :
    keys.head? = some 0x79 ∨ keys.head? = some 0x59 := by
  obtain ⟨before, between, after, l, conn, reply, b, template, prompt, rfl, hfd, _, h1, h2, _, _, _, h3, h4⟩ := hap
  have quiet : ∀ {l : Hist}, (∀ e ∈ l, ∀ fd', ¬ IsRead fd' e) → received fd l = [] := by
    intro l hl
    unfold received
    rw [List.flatMap_eq_nil_iff]
    intro e he
    obtain ⟨c, r⟩ := e
    cases c with
    | sockRead fd' len => exact absurd ⟨len, rfl⟩ (hl _ he fd')
    | _ => rfl
  have hreply : received fd [reply] = [b] := by
    obtain ⟨c, r⟩ := reply
    cases c with
    | sockRead fd' len =>
      cases r with
      | data bs hb =>
        obtain ⟨rfl, rfl⟩ := h3
        simp [received]
      | _ => exact h3.elim
    | _ => exact h3.elim
  have hacc : received fd [(⟨.accept l, some conn⟩ : Ev)] = [] := rfl
  rw [received_append, quiet h1, List.nil_append, ← List.singleton_append, received_append, hacc, List.nil_append,
    received_append, quiet h2, List.nil_append, ← List.singleton_append, received_append, hreply] at hr
  have hb : ∃ rest, keys = b :: rest := by
    obtain ⟨w, hw⟩ := hr
    have hk : (paired t).handsOver keys = (paired t).plain keys := rfl
    rw [hk] at hw
    unfold Tty.plain at hw
    cases keys with
    | nil => simp at hw
    | cons k keys =>
      rw [List.takeWhile_cons] at hw
      split at hw
      · simp only [List.cons_append, List.cons.injEq] at hw
        exact ⟨keys, by rw [hw.1]⟩
      · simp at hw
  obtain ⟨rest, rfl⟩ := hb
  rcases h4 with rfl | rfl
  · exact .inl rfl
  · exact .inr rfl

/-! ### Concrete cases -/

/-- A terminal as usual. -/
def sampleTty : Tty := ⟨true, true, true, ctrl 'C', ctrl '\\', ctrl 'Z', []⟩

/-- `y` alone reaches the session from the terminal set by the script only; from the usual one it would need a newline, and
would be shown; and Ctrl-C would end the connection. -/
example :
    (paired sampleTty).handsOver (b! "y") = b! "y" ∧ (paired sampleTty).handsOver [ctrl 'C'] = [ctrl 'C'] ∧
    (paired sampleTty).handsOver [ctrl 'D'] = [] ∧
    sampleTty.handsOver (b! "y") = [] ∧ sampleTty.handsOver (b! "y\nn") = b! "y\n" ∧ sampleTty.shows (b! "y") = b! "y" ∧
    sampleTty.kills (ctrl 'C') = true := by
  decide +kernel

/-- A run that connects: the terminal before the connection and afterwards. -/
example : ∃ before after, script sampleArith sampleAnswers (onlySudoUid none) [b! "1001", b! "5"] =
      before ++ .socat (b! "/var/run/sudo_pair/1001.5.sock") :: after ∧
    ttyAfter id sampleAnswers sampleTty before = ⟨false, false, true, ctrl 'D', ctrl '\\', ctrl 'Z', []⟩ ∧
    ttyAfter id sampleAnswers sampleTty (script sampleArith sampleAnswers (onlySudoUid none) [b! "1001", b! "5"]) = sampleTty :=
  ⟨[.idU, .statUid (b! "/var/run/sudo_pair/1001.5.sock"), .statGid (b! "/var/run/sudo_pair/1001.5.sock"), .userName 0,
    .groupName 0, .statMode (b! "/var/run/sudo_pair/1001.5.sock"), .testW (b! "/var/run/sudo_pair/1001.5.sock"), .sttyGet,
    .sttyRaw, .sttyIntr, .clear], [.sttyRestore], by decide +kernel, by decide +kernel, by decide +kernel⟩

end SudoPair
