import Verif.Spec.Follow
import Verif.Props.Discreet
import Verif.Props.Screen
/-
C84: what the pair sees of a session: their terminal follows the user's.
-/
namespace SudoPair
open Spec Core

/-! ### What has arrived at the pair, at any instant -/

theorem cut_last {h : Hist} {x : Act} {y v : List Act} (he : h.map .sys ++ [x] = y ++ v) :
    (∃ k l : Hist, h = k ++ l ∧ y = k.map .sys ∧ v = l.map .sys ++ [x]) ∨ (y = h.map .sys ++ [x] ∧ v = []) := by
  rcases List.append_eq_append_iff.1 he with ⟨z, rfl, hz⟩ | ⟨z, hz, rfl⟩
  · rcases z with _ | ⟨z0, z⟩
    · exact Or.inl ⟨h, [], by simp, by simp, by simpa using hz.symm⟩
    · simp only [List.cons_append, List.cons.injEq, List.nil_eq_append_iff] at hz
      obtain ⟨rfl, rfl, rfl⟩ := hz
      exact Or.inr ⟨rfl, rfl⟩
  · obtain ⟨k, l, rfl, rfl, rfl⟩ := List.map_eq_append_iff.1 hz
    exact Or.inl ⟨k, l, rfl, rfl, rfl⟩

/-- A logging callback, whatever becomes of it, delivers an initial piece of its payload. -/
theorem step_piece {rt : Rt} {env : IoEnv} {p : Pair} {fd : Nat} {c : Call} {o h}
    (hs : p.socket = some fd) (hc : c.isLog) (hr : Runs (Core.step rt c ⟨some env, some p⟩) o h) :
    delivered fd h <+: payload env.commandInfo c := by
  by_cases hin : ∃ buf, c = .log .stdin buf
  · obtain ⟨buf, rfl⟩ := hin
    rw [delivered_prints (step_stdin hr).1 fd]
    exact List.nil_prefix
  · exact (step_mirror hs hc (fun b hb => hin ⟨b, hb⟩) hr).pre

/-- At an instant of a running session, between `u` and `v`: `x` is what the pair has of the callback in progress. -/
def Piece (ci : CommandInfo) (u v : List Act) (x : Bytes) : Prop :=
  (x = [] ∨ ∃ c : Call, c.isLog ∧ x <+: payload ci c ∧ (During c v ∨ v = [] ∧ ∃ w, u = w ++ [.stop])) ∧
  ∀ w c, u = w ++ [.pass c] → x = []

theorem map_sys_last {k : Hist} {t w : List Act} {c : Call} (h : t ++ k.map .sys = w ++ [.pass c]) : k = [] := by
  rcases List.eq_nil_or_concat k with rfl | ⟨k, e, rfl⟩
  · rfl
  · have := congrArg List.getLast? h
    simp at this

theorem running_piece {rt : Rt} {env : IoEnv} {p : Pair} {fd : Nat} {t r}
    (hs : p.socket = some fd) (hr : Running rt ⟨some env, some p⟩ t r) :
    ∀ u v, t = u ++ v → ∃ x, delivered fd (sysOf u) = (passed u).flatMap (payload env.commandInfo) ++ x ∧
      Piece env.commandInfo u v x := by
  have main : ∀ {t : List Act} {st : State} {c : Call} {o : Out (Int × State)} {h : Hist} {last : Act},
      Running rt ⟨some env, some p⟩ t (some st) → c.isLog → Runs (Core.step rt c st) o h →
      (last = .pass c ∧ (∃ st', o = .ok (1, st')) ∨ last = .stop) →
      (∀ u v, t = u ++ v → ∃ x, delivered fd (sysOf u) = (passed u).flatMap (payload env.commandInfo) ++ x ∧
        Piece env.commandInfo u v x) →
      ∀ u v, t ++ (h.map .sys ++ [last]) = u ++ v →
        ∃ x, delivered fd (sysOf u) = (passed u).flatMap (payload env.commandInfo) ++ x ∧
          Piece env.commandInfo u v x := by
    intro t st c o h last hrun hc hstep hlast ih u v he
    obtain ⟨rfl, hall⟩ := (running_inv hs hrun).1 _ rfl
    have hpre := step_piece hs hc hstep
    rcases List.append_eq_append_iff.1 he with ⟨y, rfl, hy⟩ | ⟨y, rfl, rfl⟩
    · rcases cut_last hy with ⟨k, l, rfl, rfl, rfl⟩ | ⟨rfl, rfl⟩
      · refine ⟨delivered fd k, ?_, ?_, ?_⟩
        · rw [sysOf_append, sysOf_map, delivered_append, passed_append, passed_map, List.append_nil, hall]
        · right
          refine ⟨c, hc, ?_, Or.inl ?_⟩
          · rw [delivered_append] at hpre
            exact (List.prefix_append _ _).trans hpre
          · rcases hlast with ⟨rfl, -⟩ | rfl
            · exact Or.inl ⟨l, [], rfl⟩
            · exact Or.inr ⟨l, rfl⟩
        · intro w c' hw
          rw [map_sys_last hw]
          rfl
      · rcases hlast with ⟨rfl, st', rfl⟩ | rfl
        · refine ⟨[], ?_, Or.inl rfl, fun _ _ _ => rfl⟩
          have e1 : sysOf [Act.pass c] = [] := rfl
          have e2 : passed [Act.pass c] = [c] := rfl
          simp only [sysOf_append, passed_append, sysOf_map, passed_map, delivered_append, hall,
            (step_yes hs hc hstep).2, e1, e2, List.append_nil, List.nil_append, List.flatMap_append,
            List.flatMap_cons, List.flatMap_nil]
        · have e1 : sysOf [Act.stop] = [] := rfl
          have e2 : passed [Act.stop] = [] := rfl
          refine ⟨delivered fd h, ?_, Or.inr ⟨c, hc, hpre, Or.inr ⟨rfl, t ++ h.map .sys, by simp⟩⟩, ?_⟩
          · simp only [sysOf_append, passed_append, sysOf_map, passed_map, delivered_append, hall, e1, e2,
              List.append_nil]
          · intro w c' hw
            have := congrArg List.getLast? hw
            simp at this
    · obtain ⟨x, h1, h2, h3⟩ := ih u y rfl
      refine ⟨x, h1, ?_, h3⟩
      rcases h2 with rfl | ⟨c', h4, h5, h6⟩
      · exact Or.inl rfl
      · refine Or.inr ⟨c', h4, h5, Or.inl ?_⟩
        rcases h6 with h6 | ⟨rfl, w, rfl⟩
        · exact During.append h6 (fun hm => running_no_stop hrun (by simp [hm]))
        · exact absurd (running_no_stop hrun) (by simp)
  induction hr with
  | nil =>
    intro u v h
    obtain ⟨rfl, rfl⟩ := List.append_eq_nil_iff.1 h.symm
    exact ⟨[], rfl, Or.inl rfl, fun _ _ _ => rfl⟩
  | @pass t st' c st'' h hrun hc hstep ih => exact main hrun hc hstep (Or.inl ⟨rfl, _, rfl⟩) ih
  | @stop t st' c o h hrun hc hstep hno ih => exact main hrun hc hstep (Or.inr rfl) ih

/-! ### Any terminal -/

theorem Terminal.type_append {S : Type} (T : Terminal S) (s : S) (a b : Bytes) :
    T.type s (a ++ b) = T.type (T.type s a) b := List.foldl_append

/-- What the pair receives does to a terminal what the callbacks do to the user's. -/
theorem type_payloads {S : Type} (T : Terminal S) {ci : CommandInfo} (ht : ci.iologTtyout = true) :
    ∀ (cs : List Call) (s : S), (∀ c ∈ cs, OnTerminal c) → T.Ready s cs →
      T.type s (cs.flatMap (payload ci)) = cs.foldl T.user s
  | [], s, _, _ => rfl
  | c :: cs, s, ho, hr => by
    have ih := fun s' => type_payloads T ht cs s' (fun c h => ho c (List.mem_cons_of_mem _ h))
    have hc := ho c (List.mem_cons_self ..)
    rw [List.flatMap_cons, Terminal.type_append, List.foldl_cons]
    rcases c with _ | _ | _ | ⟨f, buf⟩ | ⟨l, k⟩
    iterate 3 exact ih _ hr
    · cases f with
      | stdout => exact absurd rfl (hc buf).1
      | stderr => exact absurd rfl (hc buf).2
      | ttyout =>
        simp only [payload, ht, if_true]
        exact ih _ hr
      | _ => exact ih _ hr
    · obtain ⟨h1, h2⟩ := hr
      simp only [payload]
      rw [show T.type s (Spec.resize l k) = T.resize s l k from h1]
      exact ih _ h2

theorem passed_mem {c : Call} {u v : List Act} (h : c ∈ passed u) : Act.pass c ∈ u ++ v := by
  obtain ⟨x, hx, hy⟩ := List.mem_filterMap.1 h
  cases x <;> simp at hy
  subst hy
  exact List.mem_append_left _ hx

/-- C84: in a session that is not exempt and whose terminal output sudo is told to log, at every instant from the start
of the command on, any terminal to which all is handed that the pair has received since is as the user's terminal (if it
was the same at the start), but for an initial piece of the callback in progress; and whenever sudo has just gone on
after a callback it is the same.  That holds as long as no output goes elsewhere, and the terminal takes the control
sequence that sets its size whenever a resize is reported. -/
theorem C84_follows {rt : Rt} {a : OpenArgs} {env : IoEnv} {t1 t2 : List Act}
    (hs : SudoSession rt a (t1 ++ .start :: t2)) (hnew : IoEnv.new rt a = some (.ok env))
    (hcmd : env.commandInfo.command ≠ []) (hne : ¬ SessionExempt env) (ht : env.commandInfo.iologTtyout = true) :
    ∃ fd, ApprovedSession env fd (sysOf t1) ∧
      ∀ (u v : List Act), t2 = u ++ v → (∀ c ∈ passed u, OnTerminal c) →
        ∀ (S : Type) (T : Terminal S) (s : S), T.Ready s (passed u) →
          ∃ x, T.type s (delivered fd (sysOf u)) = T.type ((passed u).foldl T.user s) x ∧
            Piece env.commandInfo u v x := by
  obtain ⟨st, r, hr, hrun⟩ := start_inv hs
  obtain ⟨p, rfl, hpo⟩ := fresh_open_stored hr hnew hcmd
  obtain ⟨fd, rfl, happ⟩ := approvedSession_of hne hpo
  refine ⟨fd, happ, fun u v huv ho S T s hready => ?_⟩
  obtain ⟨x, h1, h2⟩ := running_piece rfl hrun u v huv
  exact ⟨x, by rw [h1, Terminal.type_append, type_payloads T ht _ _ ho hready], h2⟩

/-! ### A terminal with a size -/

theorem Window.type_screen (w : Window) (t : Bytes) : (Window.terminal.type w t).screen = w.screen.type t := by
  induction t generalizing w with
  | nil => rfl
  | cons b t ih => exact ih (w.feed b)

/-- Digits and semicolons within a sequence. -/
theorem window_params (w : Window) (ps t : Bytes) (h : ∀ b ∈ t, 48 ≤ b ∧ b ≤ 59) (hw : w.screen.esc = some (some ps)) :
    Window.terminal.type w t = { w with screen := { w.screen with esc := some (some (ps ++ t)) } } := by
  induction t generalizing w ps with
  | nil => rcases w with ⟨⟨a, l, c, e⟩, r, k⟩; simp_all [Terminal.type]
  | cons b t ih =>
    have hb := h b (by simp)
    have e : Window.feed w b = { w with screen := { w.screen with esc := some (some (ps ++ [b])) } } := by
      have n : ∀ c : UInt8, ¬ (48 ≤ c ∧ c ≤ 59) → b ≠ c := fun c hc hbc => hc (hbc ▸ hb)
      have h5 : ¬ (b < 32 ∨ b = 127) := by
        rintro (h | rfl)
        · have := hb.1; simp only [UInt8.le_iff_toNat_le, UInt8.lt_iff_toNat_lt] at *; simp at *; omega
        · exact absurd hb.2 (by decide)
      have h6 : ¬ (64 ≤ b ∧ b ≤ 126) := by
        rintro ⟨h, -⟩
        have := hb.2; simp only [UInt8.le_iff_toNat_le] at *; simp at *; omega
      rcases w with ⟨⟨a, l, c, e⟩, r, k⟩
      simp only at hw
      subst hw
      simp [Window.feed, Screen.feed, n 27 (by decide), n 24 (by decide), n 26 (by decide), n 10 (by decide),
        n 13 (by decide), n 8 (by decide), n 116 (by decide), h5, h6]
    show Window.terminal.type (Window.feed w b) t = _
    rw [e, ih _ (ps ++ [b]) (fun c hc => h c (by simp [hc])) rfl]
    simp

theorem fields_no (t : Bytes) (h : (59 : UInt8) ∉ t) : fields t = [t] := by
  induction t with
  | nil => rfl
  | cons b t ih =>
    simp only [List.mem_cons, not_or] at h
    simp [fields, ih h.2, Ne.symm h.1]

theorem fields_first (a t : Bytes) (h : (59 : UInt8) ∉ a) : fields (a ++ 59 :: t) = a :: fields t := by
  induction a with
  | nil => simp [fields]
  | cons b a ih =>
    simp only [List.mem_cons, not_or] at h
    simp [fields, ih h.2, Ne.symm h.1]

theorem decimal_digits (n : Nat) : (∀ d ∈ decimal n, IsDigit d) ∧ decVal (decimal n) = n := by
  rw [← decNat_eq_decimal]
  exact (decNat_decimal n).2

theorem digit_range {b : UInt8} (h : IsDigit b) : 48 ≤ b ∧ b ≤ 59 := by
  unfold IsDigit at h
  simp only [UInt8.le_iff_toNat_le]
  simp
  omega

theorem decimal_no (n : Nat) : (59 : UInt8) ∉ decimal n := by
  intro h
  exact absurd ((decimal_digits n).1 _ h) (by unfold IsDigit; decide)

/-- The control sequence, whatever precedes it. -/
theorem window_resize (w : Window) {l c : Nat} (hl : 0 < l) (hc : 0 < c) :
    Window.terminal.type w (Spec.resize l c) = ⟨{ w.screen with esc := none }, l, c⟩ := by
  have e : Spec.resize l c = [27, 91] ++ ((56 :: 59 :: (decimal l ++ 59 :: decimal c)) ++ [116]) := by
    simp [Spec.resize]
  have hp : ∀ b ∈ 56 :: 59 :: (decimal l ++ 59 :: decimal c), (48 : UInt8) ≤ b ∧ b ≤ 59 := by
    intro b hb
    simp only [List.mem_append, List.mem_cons] at hb
    rcases hb with rfl | rfl | hb | rfl | hb
    · decide
    · decide
    · exact digit_range ((decimal_digits l).1 b hb)
    · decide
    · exact digit_range ((decimal_digits c).1 b hb)
  have hf : fields (56 :: 59 :: (decimal l ++ 59 :: decimal c)) = [[56], decimal l, decimal c] := by
    rw [show 56 :: 59 :: (decimal l ++ 59 :: decimal c) = [56] ++ 59 :: (decimal l ++ 59 :: decimal c) from rfl,
      fields_first _ _ (by decide), fields_first _ _ (decimal_no l), fields_no _ (decimal_no c)]
  have h8 : decVal [56] = 8 := by decide
  rw [e, Terminal.type_append, Terminal.type_append]
  have hstart : Window.terminal.type w [27, 91] = { w with screen := { w.screen with esc := some (some []) } } := by
    rcases w with ⟨⟨a, l, c, e⟩, r, k⟩
    simp [Terminal.type, Window.terminal, Window.feed, Screen.feed]
  rw [hstart, window_params _ [] _ hp rfl]
  simp only [List.nil_append]
  show Window.feed _ 116 = _
  simp [Window.feed, hf, h8, (decimal_digits l).2, (decimal_digits c).2, hl, hc, Screen.feed, Screen.control]

/-- C84: the terminal of Spec/Follow takes the control sequence exactly if it is not within another one. -/
theorem C84_takes (w : Window) {l c : Nat} (hl : 0 < l) (hc : 0 < c) :
    Window.terminal.Takes w l c ↔ w.screen.esc = none := by
  unfold Terminal.Takes
  rw [window_resize w hl hc]
  rcases w with ⟨⟨a, b, k, e⟩, r, s⟩
  simp [Window.terminal, eq_comm]

/-- Two windows that show the same below `pa` and `ua`. -/
structure SameBelow (pa ua : List Bytes) (w w' : Window) : Prop where
  above : ∃ z, w.screen.above = pa ++ z ∧ w'.screen.above = ua ++ z
  line  : w.screen.line = w'.screen.line
  col   : w.screen.col = w'.screen.col
  esc   : w.screen.esc = w'.screen.esc

theorem SameBelow.lines {pa ua : List Bytes} {w w' : Window} (h : SameBelow pa ua w w') :
    ∃ x, w.screen.lines = pa ++ x ∧ w'.screen.lines = ua ++ x := by
  obtain ⟨z, h1, h2⟩ := h.above
  exact ⟨z ++ [w'.screen.line], by simp [Screen.lines, h1, h.line], by simp [Screen.lines, h2]⟩

theorem SameBelow.type {pa ua : List Bytes} {w w' : Window} (h : SameBelow pa ua w w') (t : Bytes) :
    SameBelow pa ua (Window.terminal.type w t) (Window.terminal.type w' t) := by
  obtain ⟨⟨z, h1, h2⟩, h3, h4, h5⟩ := h
  have e1 : (Window.terminal.type w t).screen = _ := Window.type_screen w t
  have e2 : (Window.terminal.type w' t).screen = _ := Window.type_screen w' t
  have a1 := above_type ⟨z, w'.screen.line, w'.screen.col, w'.screen.esc⟩ pa t
  have a2 := above_type ⟨z, w'.screen.line, w'.screen.col, w'.screen.esc⟩ ua t
  have w1 : w.screen = ⟨pa ++ z, w'.screen.line, w'.screen.col, w'.screen.esc⟩ := by
    rw [← h1, ← h3, ← h4, ← h5]
  have w2 : w'.screen = ⟨ua ++ z, w'.screen.line, w'.screen.col, w'.screen.esc⟩ := by
    rw [← h2]
  rw [w1, a1] at e1
  rw [w2, a2] at e2
  constructor
  · exact ⟨_, by rw [e1], by rw [e2]⟩
  all_goals rw [e1, e2]

theorem SameBelow.size {pa ua : List Bytes} {w w' : Window} (h : SameBelow pa ua w w')
    (hs : w.rows = w'.rows ∧ w.cols = w'.cols) (t : Bytes) :
    (Window.terminal.type w t).rows = (Window.terminal.type w' t).rows ∧
    (Window.terminal.type w t).cols = (Window.terminal.type w' t).cols := by
  induction t generalizing w w' with
  | nil => exact hs
  | cons b t ih =>
    refine ih (w := w.feed b) (w' := w'.feed b) (h.type [b]) ?_
    simp [Window.feed, h.esc, hs.1, hs.2]

/-- The callbacks keep two windows alike, and a resize gives them the same size. -/
theorem SameBelow.calls {pa ua : List Bytes} (cs : List Call) : ∀ {w w' : Window}, SameBelow pa ua w w' →
    SameBelow pa ua (cs.foldl Window.terminal.user w) (cs.foldl Window.terminal.user w') ∧
    ((w.rows = w'.rows ∧ w.cols = w'.cols ∨ ∃ l k, Call.changeWinsize l k ∈ cs) →
      (cs.foldl Window.terminal.user w).rows = (cs.foldl Window.terminal.user w').rows ∧
      (cs.foldl Window.terminal.user w).cols = (cs.foldl Window.terminal.user w').cols) := by
  induction cs with
  | nil => intro w w' h; exact ⟨h, fun hs => hs.elim id (fun ⟨_, _, h⟩ => by simp at h)⟩
  | cons c cs ih =>
    intro w w' h
    have key : SameBelow pa ua (Window.terminal.user w c) (Window.terminal.user w' c) ∧
        ((w.rows = w'.rows ∧ w.cols = w'.cols ∨ ∃ l k, c = Call.changeWinsize l k) →
          (Window.terminal.user w c).rows = (Window.terminal.user w' c).rows ∧
          (Window.terminal.user w c).cols = (Window.terminal.user w' c).cols) := by
      rcases c with _ | _ | _ | ⟨f, buf⟩ | ⟨l, k⟩
      iterate 3 exact ⟨h, fun hs => hs.elim id (fun ⟨_, _, h⟩ => by simp at h)⟩
      · cases f with
        | ttyout =>
          exact ⟨h.type buf, fun hs => hs.elim (fun hs => h.size hs buf) (fun ⟨_, _, h⟩ => by simp at h)⟩
        | _ => exact ⟨h, fun hs => hs.elim id (fun ⟨_, _, h⟩ => by simp at h)⟩
      · exact ⟨⟨h.above, h.line, h.col, h.esc⟩, fun _ => ⟨rfl, rfl⟩⟩
    refine ⟨(ih key.1).1, fun hs => (ih key.1).2 ?_⟩
    rcases hs with hs | ⟨l, k, hm⟩
    · exact Or.inl (key.2 (Or.inl hs))
    · rcases List.mem_cons.1 hm with hm | hm
      · exact Or.inl (key.2 (Or.inr ⟨l, k, hm.symm⟩))
      · exact Or.inr ⟨l, k, hm⟩

/-- Windows that are alike are ready alike. -/
theorem SameBelow.ready {pa ua : List Bytes} (cs : List Call) : ∀ {w w' : Window}, SameBelow pa ua w w' →
    (∀ l k, Call.changeWinsize l k ∈ cs → 0 < l ∧ 0 < k) → Window.terminal.Ready w' cs → Window.terminal.Ready w cs := by
  induction cs with
  | nil => intros; trivial
  | cons c cs ih =>
    intro w w' h hp hr
    have hp' : ∀ l k, Call.changeWinsize l k ∈ cs → 0 < l ∧ 0 < k := fun l k hm => hp l k (List.mem_cons_of_mem _ hm)
    have key := ((SameBelow.calls [c]) h).1
    rcases c with _ | _ | _ | ⟨f, buf⟩ | ⟨l, k⟩
    iterate 3 exact ih h hp' hr
    · exact ih key hp' hr
    · obtain ⟨hl, hk⟩ := hp l k (by simp)
      obtain ⟨h1, h2⟩ := hr
      refine ⟨?_, ih key hp' h2⟩
      rw [C84_takes _ hl hk] at h1 ⊢
      rw [h.esc, h1]

/-- C84: whatever stands on the two terminals when the command is started, if both cursors are at the beginning of an
empty line then, whenever sudo has just gone on after a callback, the pair's terminal shows below it exactly what the
user's shows below it, with the cursor at the same place; and once the user's window has been resized the two have the
same size.  Again, as long as no output goes elsewhere, and no resize is reported within a control sequence. -/
theorem C84_screen {rt : Rt} {a : OpenArgs} {env : IoEnv} {t1 t2 : List Act}
    (hs : SudoSession rt a (t1 ++ .start :: t2)) (hnew : IoEnv.new rt a = some (.ok env))
    (hcmd : env.commandInfo.command ≠ []) (hne : ¬ SessionExempt env) (ht : env.commandInfo.iologTtyout = true) :
    ∃ fd, ApprovedSession env fd (sysOf t1) ∧
      ∀ (u v : List Act) (c : Call), t2 = u ++ .pass c :: v → (∀ d ∈ passed (u ++ [.pass c]), OnTerminal d) →
        (∀ l k, Call.changeWinsize l k ∈ passed (u ++ [.pass c]) → 0 < l ∧ 0 < k) →
        ∀ (pa ua : List Bytes) (r k r' k' : Nat),
          Window.terminal.Ready ⟨⟨ua, [], 0, none⟩, r', k'⟩ (passed (u ++ [.pass c])) →
          let pair := Window.terminal.type ⟨⟨pa, [], 0, none⟩, r, k⟩ (delivered fd (sysOf u))
          let user := (passed (u ++ [.pass c])).foldl Window.terminal.user ⟨⟨ua, [], 0, none⟩, r', k'⟩
          (∃ x, pair.screen.lines = pa ++ x ∧ user.screen.lines = ua ++ x) ∧ pair.screen.col = user.screen.col ∧
          ((r = r' ∧ k = k' ∨ ∃ l m, Call.changeWinsize l m ∈ passed (u ++ [.pass c])) →
            pair.rows = user.rows ∧ pair.cols = user.cols) := by
  obtain ⟨fd, happ, hall⟩ := C84_follows hs hnew hcmd hne ht
  refine ⟨fd, happ, fun u v c h2 ho hp pa ua r k r' k' hr => ?_⟩
  have ha : SameBelow pa ua ⟨⟨pa, [], 0, none⟩, r, k⟩ ⟨⟨ua, [], 0, none⟩, r', k'⟩ :=
    ⟨⟨[], by simp, by simp⟩, rfl, rfl, rfl⟩
  obtain ⟨x, e, -, hx⟩ := hall (u ++ [.pass c]) v (by simp [h2]) ho Window Window.terminal _ (ha.ready _ hp hr)
  obtain rfl := hx u c rfl
  have es : sysOf (u ++ [.pass c]) = sysOf u := by rw [sysOf_append]; exact List.append_nil _
  rw [es] at e
  intro pair user
  have hpair : pair = (passed (u ++ [.pass c])).foldl Window.terminal.user ⟨⟨pa, [], 0, none⟩, r, k⟩ := e
  obtain ⟨h3, h4⟩ := SameBelow.calls (passed (u ++ [.pass c])) ha
  rw [hpair]
  exact ⟨h3.lines, h3.col, h4⟩

/-! ### Concrete cases -/

/-- A session that the pair approves, with two pieces of output, keys, and a resize. -/
def resizedSession (split : Bool) : List Act :=
  frontend sampleRt sampleArgs
    (if split then [.log .ttyout (b! "secret\r\x1b["), .changeWinsize 50 132, .log .ttyout (b! "Kls")]
     else [.log .ttyout (b! "secret\r\x1b[K"), .log .ttyin (b! "k"), .changeWinsize 50 132, .log .ttyout (b! "ls\nb")])
    (List.replicate 120 (coop 121))

def followed (t : List Act) : List Act := (t.dropWhile fun | .start => false | _ => true).drop 1

/-- What the pair's terminal and the user's are like in the end. -/
def pairWindow (t : List Act) : Window :=
  Window.terminal.type ⟨⟨[b! "prompt"], [], 0, none⟩, 24, 80⟩ (delivered 8 (sysOf (followed t)))
def userWindow (t : List Act) : Window :=
  (passed (followed t)).foldl Window.terminal.user ⟨⟨[b! "$ sudo ls"], [], 0, none⟩, 40, 100⟩

/-- Non-vacuity: both see the same below what they had before, in windows of the same size. -/
example : SudoSession sampleRt sampleArgs (resizedSession false) ∧ (passed (followed (resizedSession false))).length = 4 ∧
    pairWindow (resizedSession false) = ⟨⟨[b! "prompt", b! "ls"], b! "b", 1, none⟩, 50, 132⟩ ∧
    userWindow (resizedSession false) = ⟨⟨[b! "$ sudo ls", b! "ls"], b! "b", 1, none⟩, 50, 132⟩ := by
  refine ⟨frontend_session _ _ _ _ (by simp [Call.isLog]), ?_⟩
  decide +kernel

/-- And the hypotheses of C84_screen hold in it. -/
example : (∀ d ∈ passed (followed (resizedSession false)), OnTerminal d) ∧
    (∀ l k, Call.changeWinsize l k ∈ passed (followed (resizedSession false)) → 0 < l ∧ 0 < k) ∧
    Window.terminal.Ready ⟨⟨[b! "$ sudo ls"], [], 0, none⟩, 40, 100⟩ (passed (followed (resizedSession false))) := by
  have h : passed (followed (resizedSession false)) = [.log .ttyout (b! "secret\r\x1b[K"), .log .ttyin (b! "k"),
      .changeWinsize 50 132, .log .ttyout (b! "ls\nb")] := by decide +kernel
  rw [h]
  refine ⟨by simp [OnTerminal], by simp, ?_, trivial⟩
  exact (C84_takes _ (by decide) (by decide)).2 (by decide)

theorem followed_start {t : List Act}
    (h : (match t.dropWhile (fun | .start => false | _ => true) with | .start :: _ => true | _ => false) = true) :
    ∃ t1, t = t1 ++ .start :: followed t := by
  refine ⟨t.takeWhile (fun | .start => false | _ => true), ?_⟩
  conv => lhs; rw [← List.takeWhile_append_dropWhile (p := fun | .start => false | _ => true) (l := t)]
  unfold followed
  rcases hd : t.dropWhile (fun | .start => false | _ => true) with _ | ⟨x, l⟩
  · rw [hd] at h; simp at h
  · rw [hd] at h
    cases x <;> simp at h
    rw [hd]
    rfl

/-- A terminal that shows all it gets. -/
def plain : Terminal Bytes := ⟨fun s b => s ++ [b], fun s l c => s ++ Spec.resize l c⟩

theorem plain_type (s t : Bytes) : plain.type s t = s ++ t := by
  induction t generalizing s with
  | nil => simp [Terminal.type]
  | cons b t ih =>
    show plain.type (s ++ [b]) t = _
    rw [ih]; simp

theorem plain_ready (cs : List Call) : ∀ s, plain.Ready s cs := by
  induction cs with
  | nil => intro s; trivial
  | cons c cs ih =>
    intro s
    rcases c with _ | _ | _ | ⟨f, buf⟩ | ⟨l, k⟩
    iterate 4 exact ih _
    exact ⟨plain_type _ _, ih _⟩

/-- C84: the condition on resizes cannot be dropped.  If a piece of output ends within a control sequence and a resize
comes next, the sequence is broken off on the pair's terminal and not on the user's: in this session, in which all the
rest holds, the user is shown `ls` and the pair `Klsret`. -/
theorem C84_counterexample : ∃ (rt : Rt) (a : OpenArgs) (env : IoEnv) (t1 t2 : List Act) (fd : Nat),
    SudoSession rt a (t1 ++ .start :: t2) ∧ IoEnv.new rt a = some (.ok env) ∧ env.commandInfo.command ≠ [] ∧
    ¬ SessionExempt env ∧ env.commandInfo.iologTtyout = true ∧ ApprovedSession env fd (sysOf t1) ∧
    passed t2 = [.log .ttyout (b! "secret\r\x1b["), .changeWinsize 50 132, .log .ttyout (b! "Kls")] ∧
    (∃ u c, t2 = u ++ [.pass c]) ∧
    (Window.terminal.type ⟨Screen.blank, 40, 100⟩ (delivered fd (sysOf t2))).screen.lines = [b! "Klsret"] ∧
    ((passed t2).foldl Window.terminal.user ⟨Screen.blank, 40, 100⟩).screen.lines = [b! "ls"] := by
  have h5 : ((IoEnv.new sampleRt sampleArgs).bind Except.toOption).map
      (fun env => ((Pair.ofEnv env).isExempt false, env.commandInfo.command, env.commandInfo.iologTtyout)) =
        some (some false, b! "/bin/ls", true) := by decide +kernel
  have hs : SudoSession sampleRt sampleArgs (resizedSession true) := frontend_session _ _ _ _ (by simp [Call.isLog])
  have hp : passed (followed (resizedSession true)) =
      [.log .ttyout (b! "secret\r\x1b["), .changeWinsize 50 132, .log .ttyout (b! "Kls")] := by decide +kernel
  have hl : (match (followed (resizedSession true)).reverse with | .pass _ :: _ => true | _ => false) = true := by
    decide +kernel
  obtain ⟨t1, ht1⟩ := followed_start (t := resizedSession true) (by decide +kernel)
  generalize followed (resizedSession true) = t2 at *
  rw [ht1] at hs
  obtain ⟨u, c, hu⟩ : ∃ u c, t2 = u ++ [.pass c] := by
    rcases hr : t2.reverse with _ | ⟨x, l⟩ <;> rw [hr] at hl
    · simp at hl
    · cases x <;> simp at hl
      exact ⟨l.reverse, _, by rw [← List.reverse_reverse t2, hr, List.reverse_cons]⟩
  rcases hn : IoEnv.new sampleRt sampleArgs with _ | (e | env) <;> rw [hn] at h5
  · simp at h5
  · simp [Except.toOption] at h5
  · simp only [Except.toOption, Option.bind_some, Option.map_some, Option.some.injEq, Prod.mk.injEq] at h5
    obtain ⟨h6, h7, h8⟩ := h5
    have hne : ¬ SessionExempt env := fun hx => by
      have := (C04_release (Pair.ofEnv env)).2 hx
      rw [h6] at this; simp at this
    have hcmd : env.commandInfo.command ≠ [] := by rw [h7]; simp
    obtain ⟨fd, happ, hall⟩ := C84_follows hs hn hcmd hne h8
    obtain ⟨x, hx, -, hx0⟩ := hall t2 [] (by simp) (by rw [hp]; simp [OnTerminal]) Bytes plain [] (plain_ready _ _)
    obtain rfl := hx0 u c hu
    rw [plain_type, plain_type, hp] at hx
    refine ⟨sampleRt, sampleArgs, env, t1, t2, fd, hs, hn, hcmd, hne, h8, happ, hp, ⟨u, c, hu⟩, ?_, ?_⟩
    · rw [← List.nil_append (delivered fd _), hx]
      decide +kernel
    · rw [hp]
      decide +kernel

/-- The size that the user's window has at the beginning is not sent: until the first resize the pair's keeps its own. -/
example :
    let t := frontend sampleRt sampleArgs [.log .ttyout (b! "a")] (List.replicate 120 (coop 121))
    (pairWindow t).rows = 24 ∧ (pairWindow t).cols = 80 ∧ (userWindow t).rows = 40 ∧ (userWindow t).cols = 100 ∧
    (pairWindow t).screen.line = b! "a" := by decide +kernel

end SudoPair
