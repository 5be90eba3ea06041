import Verif.Props.Order
import Verif.Props.Gate
import Verif.Spec.World
/-
C67: who can be on the other side of the approval socket, with other processes around.
-/
namespace SudoPair
open Spec

variable {S : Site}

theorem owns_append (a b : List Happening) : owns (a ++ b) = owns a ++ owns b := List.filterMap_append

theorem run_append (S : Site) : ∀ (a b : List Happening) (w : World), S.run w (a ++ b) = (S.run w a).bind fun w' => S.run w' b
  | [], _, _ => rfl
  | x :: a, b, w => by
    simp only [List.cons_append, Site.run, Option.bind_assoc]
    cases S.happens w x with
    | none => rfl
    | some w' => exact run_append S a b w'

/-- Where an interaction of the plugin is among the events. -/
theorem owns_split {h1 h2 : Hist} {e : Ev} : ∀ {l : List Happening}, owns l = h1 ++ e :: h2 →
    ∃ l1 l2, l = l1 ++ .inl e :: l2 ∧ owns l1 = h1 ∧ owns l2 = h2 := by
  intro l
  induction l generalizing h1 with
  | nil => intro h; cases h1 <;> simp [owns] at h
  | cons x l ih =>
    intro h
    cases x with
    | inr y =>
      obtain ⟨l1, l2, rfl, k1, k2⟩ := ih (h1 := h1) (by simpa [owns] using h)
      exact ⟨.inr y :: l1, l2, rfl, by simpa [owns] using k1, k2⟩
    | inl e' =>
      have h' : e' :: owns l = h1 ++ e :: h2 := by simpa [owns] using h
      cases h1 with
      | nil =>
        simp only [List.nil_append, List.cons.injEq] at h'
        obtain ⟨rfl, h'⟩ := h'
        exact ⟨[], l, rfl, rfl, h'⟩
      | cons e1 h1 =>
        simp only [List.cons_append, List.cons.injEq] at h'
        obtain ⟨rfl, h'⟩ := h'
        obtain ⟨l1, l2, rfl, k1, k2⟩ := ih h'
        exact ⟨.inl e' :: l1, l2, rfl, by simp [owns] at k1 ⊢; exact k1, k2⟩

theorem run_split {h1 h2 : Hist} {e : Ev} {l : List Happening} {w w' : World} (ho : owns l = h1 ++ e :: h2)
    (hr : S.run w l = some w') : ∃ l1 l2 w1 w2, l = l1 ++ .inl e :: l2 ∧ owns l1 = h1 ∧ owns l2 = h2 ∧
      S.run w l1 = some w1 ∧ S.own w1 e = some w2 ∧ S.run w2 l2 = some w' := by
  obtain ⟨l1, l2, rfl, k1, k2⟩ := owns_split ho
  rw [run_append] at hr
  cases h1 : S.run w l1 with
  | none => rw [h1] at hr; simp at hr
  | some w1 =>
    rw [h1] at hr
    simp only [Option.bind_some, Site.run, Site.happens] at hr
    cases h2 : S.own w1 e with
    | none => rw [h2] at hr; simp at hr
    | some w2 =>
      rw [h2] at hr
      exact ⟨l1, l2, w1, w2, rfl, k1, k2, h1, h2, hr⟩

/-! ### The directory -/

/-- Nobody but its owner, the plugin's user, may write to the directory. -/
def DirGood (euid : Nat) (w : World) : Prop := w.dirOwner = euid ∧ w.dirMode &&& 0o022 = 0

/-- Nobody of `T` does anything but connecting. -/
def Calm (T : Cred → Prop) (l : List Happening) : Prop := ∀ c a, .inr (c, a) ∈ l → a.Meddles → ¬ T c

theorem own_dir {w w' : World} {e : Ev} (h : S.own w e = some w') :
    w'.dirOwner = w.dirOwner ∧ w'.dirGroup = w.dirGroup ∧ w'.dirMode = w.dirMode := by
  unfold Site.own at h
  split at h <;> (try split at h) <;> (try split at h) <;> (try split at h) <;> simp at h <;>
    (try subst h) <;> simp <;> split <;> simp

theorem act_dir {euid : Nat} {T : Cred → Prop} (h0 : ∀ c : Cred, c.uid = 0 ∨ c.uid = euid → T c) {w : World} {c : Cred}
    {a : Deed} (hw : DirGood euid w) (hm : w.may c a = true) (hc : a.Meddles → ¬ T c) : DirGood euid (w.act c a) := by
  cases a <;> try exact hw
  · simp [World.may] at hm
    exact absurd (h0 c (by rw [hw.1] at hm; exact hm)) (hc trivial)
  · simp [World.may] at hm
    exact absurd (h0 c (Or.inl hm)) (hc trivial)

theorem run_dir {euid : Nat} {T : Cred → Prop} (h0 : ∀ c : Cred, c.uid = 0 ∨ c.uid = euid → T c) :
    ∀ {l : List Happening} {w w' : World}, DirGood euid w → Calm T l → S.run w l = some w' → DirGood euid w'
  | [], w, w', hw, _, h => by simp [Site.run] at h; exact h ▸ hw
  | x :: l, w, w', hw, hc, h => by
    have hc' : Calm T l := fun c a hm => hc c a (List.mem_cons_of_mem _ hm)
    simp only [Site.run] at h
    cases hx : S.happens w x with
    | none => rw [hx] at h; simp at h
    | some w1 =>
      rw [hx] at h
      refine run_dir h0 ?_ hc' h
      cases x with
      | inl e =>
        obtain ⟨k1, _, k3⟩ := own_dir (w := w) (w' := w1) (e := e) hx
        exact ⟨k1.trans hw.1, by rw [k3]; exact hw.2⟩
      | inr y =>
        obtain ⟨c, a⟩ := y
        simp only [Site.happens] at hx
        split at hx
        · rename_i hm
          simp only [Option.some.injEq] at hx
          subst hx
          exact act_dir h0 hw hm (hc c a (List.mem_cons_self ..))
        · simp at hx

theorem connects_dir {w : World} {euid : Nat} (hw : DirGood euid w) {c : Cred}
    (h : (⟨w.dirOwner, w.dirGroup, w.dirMode⟩ : Node).connects c = true) : c.uid = euid := by
  have h20 : w.dirMode &&& 0o020 = 0 := by
    have : w.dirMode &&& 0o020 = (w.dirMode &&& 0o022) &&& 0o020 := by rw [Nat.and_assoc]; rfl
    rw [this, hw.2]; rfl
  have h2 : w.dirMode &&& 0o002 = 0 := by
    have : w.dirMode &&& 0o002 = (w.dirMode &&& 0o022) &&& 0o002 := by rw [Nat.and_assoc]; rfl
    rw [this, hw.2]; rfl
  unfold Node.connects at h
  split at h
  · rename_i h'; exact h'.trans hw.1
  · split at h <;> simp [h20, h2] at h

/-! ### The phases of the handshake after `bind` -/

def late : Phase → Bool
  | .bound _ _ | .owned _ _ | .opened _ _ | .ready _ _ => true
  | _ => false

def dead : Phase → Bool
  | .over _ _ | .leftover _ _ | .removed _ _ | .connected _ | .asking _ _ _ | .answered _ | .closed => true
  | _ => false

variable {P : Plan}

theorem follow_snoc {ph ph' : Phase} {h : Hist} {e : Ev} (hf : P.follow ph (h ++ [e]) = some ph') :
    ∃ ph1, P.follow ph h = some ph1 ∧ P.next ph1 e = some ph' := by
  rw [follow_append] at hf
  cases h1 : P.follow ph h with
  | none => rw [h1] at hf; simp at hf
  | some ph1 =>
    rw [h1] at hf
    refine ⟨ph1, rfl, ?_⟩
    simp only [Option.bind_some, Plan.follow] at hf
    cases h2 : P.next ph1 e with
    | none => rw [h2] at hf; simp at hf
    | some ph2 => rw [h2] at hf; simpa [Plan.follow] using hf

theorem next_masked {ph : Phase} {e : Ev} {old : Nat} (h : P.next ph e = some (.masked old)) :
    e = ⟨.umask 0o777, old⟩ := by
  unfold Plan.next at h
  split at h <;> (try unfold cleanup at h) <;> (repeat' split at h) <;> simp_all

theorem next_accept {ph ph' : Phase} {fd : Nat} {c} (h : P.next ph ⟨.accept fd, c⟩ = some ph') : ∃ old, ph = .ready old fd := by
  unfold Plan.next at h
  split at h <;> (try unfold cleanup at h) <;> simp_all

theorem next_late {ph ph' : Phase} {e : Ev} (h : P.next ph e = some ph') (hl : late ph' = true) :
    (late ph = true) ∨ ∃ old fd, ph = .masked old ∧ e = ⟨.bind P.path, .bound fd⟩ ∧ ph' = .bound old fd := by
  unfold Plan.next at h
  split at h <;> (try unfold cleanup at h) <;> (repeat' split at h) <;> simp_all [late] <;> (try subst h) <;> simp_all

/-- How a phase after `bind` is reached: by way of `bind`. -/
theorem follow_late {h : Hist} {ph : Phase} (hl : late ph = true) : ∀ {ph0}, late ph0 = false →
    P.follow ph0 h = some ph → ∃ h1 h2 old fd, h = h1 ++ ⟨.bind P.path, .bound fd⟩ :: h2 ∧
      P.follow ph0 h1 = some (.masked old) ∧ P.follow (.bound old fd) h2 = some ph := by
  induction h with
  | nil =>
    intro ph0 h0 hf
    simp only [Plan.follow, Option.some.injEq] at hf
    subst hf; rw [hl] at h0; simp at h0
  | cons e h ih =>
    intro ph0 h0 hf
    simp only [Plan.follow] at hf
    cases h1 : P.next ph0 e with
    | none => rw [h1] at hf; simp at hf
    | some ph1 =>
      rw [h1] at hf
      simp only [Option.bind_some] at hf
      by_cases hl1 : late ph1 = true
      · rcases next_late h1 hl1 with h2 | ⟨old, fd, rfl, rfl, rfl⟩
        · rw [h0] at h2; simp at h2
        · exact ⟨[], h, old, fd, rfl, rfl, hf⟩
      · obtain ⟨k1, k2, old, fd, rfl, k3, k4⟩ := ih (by simpa using hl1) hf
        exact ⟨e :: k1, k2, old, fd, rfl, by simp [Plan.follow, h1, k3], k4⟩

theorem dead_next {ph ph' : Phase} {e : Ev} (hd : dead ph = true) (h : P.next ph e = some ph') : dead ph' = true := by
  unfold Plan.next at h
  split at h <;> (try unfold cleanup at h) <;> (repeat' split at h) <;> simp_all [dead] <;> (try subst h) <;> simp_all <;>
    split <;> simp_all

theorem dead_follow {h : Hist} : ∀ {ph ph' : Phase}, dead ph = true → P.follow ph h = some ph' → dead ph' = true := by
  induction h with
  | nil => intro ph ph' hd hf; simp only [Plan.follow, Option.some.injEq] at hf; exact hf ▸ hd
  | cons e h ih =>
    intro ph ph' hd hf
    simp only [Plan.follow] at hf
    cases h1 : P.next ph e with
    | none => rw [h1] at hf; simp at hf
    | some ph1 => rw [h1] at hf; exact ih (dead_next hd h1) hf

theorem late_stays {ph ph' : Phase} {e : Ev} (hl : late ph = true) (h : P.next ph e = some ph') :
    late ph' = true ∨ dead ph' = true := by
  unfold Plan.next at h
  split at h <;> (try unfold cleanup at h) <;> (repeat' split at h) <;> simp_all [late] <;> (try subst h) <;>
    (try split) <;> simp_all [dead]

/-! ### The socket -/

/-- The socket once the plugin is done with it. -/
def lastNode (S : Site) (P : Plan) : Node :=
  ⟨if P.uid = noId then S.euid else P.uid, if P.gid = noId then S.grp else P.gid, P.mode⟩

/-- The socket in each phase from `bind` to `accept`. -/
def nodeIn (S : Site) (P : Plan) : Phase → Option Node
  | .bound _ _ => some ⟨S.euid, S.grp, 0⟩
  | .owned _ _ => some { lastNode S P with mode := 0 }
  | .opened _ _ | .ready _ _ => some (lastNode S P)
  | _ => none

/-- From `bind` to `accept`: the socket is at its path, as the plugin made it, and whoever has connected was let
in by its final permissions. -/
structure Held (S : Site) (P : Plan) (ph : Phase) (w : World) : Prop where
  dir   : DirGood S.euid w
  slot  : w.slot = .ours
  sock  : w.sock = nodeIn S P ph
  queue : ∀ c ∈ w.queue, c.uid = 0 ∨ (lastNode S P).connects c = true

theorem connects_zero {o g : Nat} {c : Cred} : (⟨o, g, 0⟩ : Node).connects c = false := by
  unfold Node.connects; split <;> (try split) <;> simp

/-- Those whom the permissions allow to interfere. -/
def Trusted (S : Site) (P : Plan) (c : Cred) : Prop := c.uid = 0 ∨ c.uid = S.euid ∨ c.uid = (lastNode S P).owner

theorem held_act {ph : Phase} {w : World} {c : Cred} {a : Deed} (hl : late ph = true) (hw : Held S P ph w)
    (hm : w.may c a = true) (hc : a.Meddles → ¬ Trusted S P c) : Held S P ph (w.act c a) := by
  obtain ⟨h1, h2, h3, h4⟩ := hw
  have hd := act_dir (T := Trusted S P) (fun c h => h.elim .inl (.inr ∘ .inl)) h1 hm hc
  have hown : ∀ n, nodeIn S P ph = some n → n.owner = c.uid → Trusted S P c := by
    intro n hn ho
    cases ph <;> simp [nodeIn] at hn <;> subst hn <;> simp [Trusted] at ho ⊢ <;> simp [ho]
  obtain ⟨n, hn⟩ : ∃ n, nodeIn S P ph = some n := by cases ph <;> simp [late, nodeIn] at hl ⊢
  rw [hn] at h3
  cases a with
  | connect =>
    refine ⟨hd, h2, h3.trans hn.symm, ?_⟩
    simp only [World.act, List.mem_append, List.mem_singleton]
    rintro c' (h | rfl)
    · exact h4 c' h
    · simp [World.may, h3] at hm
      rcases hm with hm | hm
      · exact .inl hm
      · right
        cases ph <;> simp [nodeIn] at hn <;> subst hn <;> first | exact hm | (rw [connects_zero] at hm; simp at hm)
  | chmodSocket m =>
    simp [World.may, h3] at hm
    exact absurd (hm.elim .inl (hown n hn)) (hc trivial)
  | chgrpSocket m =>
    simp [World.may, h3] at hm
    exact absurd (hm.elim .inl (fun h => hown n hn h.1)) (hc trivial)
  | chownSocket m =>
    simp [World.may] at hm
    exact absurd (.inl hm) (hc trivial)
  | chmodDir m => exact ⟨hd, h2, h3.trans hn.symm, h4⟩
  | chownDir u g => exact ⟨hd, h2, h3.trans hn.symm, h4⟩
  | relink s =>
    simp [World.may] at hm
    exact absurd (hm.elim .inl fun h => .inr (.inl (connects_dir h1 h))) (hc trivial)

theorem held_own {ph ph' : Phase} {w w' : World} {e : Ev} (hpath : P.path = S.path) (hl' : late ph' = true)
    (hl : late ph = true) (hw : Held S P ph w) (hn : P.next ph e = some ph') (ho : S.own w e = some w') :
    Held S P ph' w' := by
  obtain ⟨h1, h2, h3, h4⟩ := hw
  have hd : DirGood S.euid w' := by
    obtain ⟨k1, _, k3⟩ := own_dir ho
    exact ⟨k1.trans h1.1, by rw [k3]; exact h1.2⟩
  unfold Plan.next at hn
  split at hn <;> simp [late] at hl
  · split at hn
    · rename_i ok hq
      obtain ⟨rfl, rfl, rfl⟩ := hq
      cases ok <;> simp at hn <;> subst hn
      · simp [late] at hl'
      · simp [Site.own, hpath, h2] at ho
        subst ho
        exact ⟨hd, rfl, by simp [h3, nodeIn, lastNode], h4⟩
    · simp at hn
  · simp only [cleanup] at hn
    split at hn
    · simp only [Option.some.injEq] at hn; subst hn; split at hl' <;> simp [late] at hl'
    · simp at hn
  · split at hn
    · rename_i ok hq
      obtain ⟨rfl, rfl⟩ := hq
      cases ok <;> simp at hn <;> subst hn
      · simp [late] at hl'
      · simp [Site.own, hpath, h2] at ho
        subst ho
        exact ⟨hd, rfl, by simp [h3, nodeIn, lastNode], h4⟩
    · simp at hn
  · split at hn
    · simp only [Option.some.injEq] at hn
      split at hn <;> subst hn
      · simp [Site.own] at ho
        subst ho
        exact ⟨hd, h2, by simp [h3, nodeIn], h4⟩
      · simp [late] at hl'
    · simp at hn
  · split at hn
    · simp only [Option.some.injEq] at hn; subst hn; simp [late] at hl'
    · simp at hn
  · simp at hn

theorem held_run (hpath : P.path = S.path) : ∀ {l : List Happening} {ph ph' : Phase} {w w' : World}, late ph = true →
    late ph' = true → Held S P ph w → P.follow ph (owns l) = some ph' → S.run w l = some w' → Calm (Trusted S P) l →
    Held S P ph' w'
  | [], ph, ph', w, w', _, _, hw, hf, hr, _ => by
    simp [owns, Plan.follow] at hf
    simp [Site.run] at hr
    exact hf ▸ hr ▸ hw
  | x :: l, ph, ph', w, w', hl, hl', hw, hf, hr, hc => by
    have hc' : Calm (Trusted S P) l := fun c a hm => hc c a (List.mem_cons_of_mem _ hm)
    simp only [Site.run] at hr
    cases hx : S.happens w x with
    | none => rw [hx] at hr; simp at hr
    | some w1 =>
      rw [hx] at hr
      simp only [Option.bind_some] at hr
      cases x with
      | inr y =>
        obtain ⟨c, a⟩ := y
        simp only [Site.happens] at hx
        split at hx
        · rename_i hm
          simp only [Option.some.injEq] at hx
          subst hx
          exact held_run hpath hl hl' (held_act hl hw hm (hc c a (List.mem_cons_self ..)))
            (by simpa [owns] using hf) hr hc'
        · simp at hx
      | inl e =>
        have hf' : (P.next ph e).bind (fun ph1 => P.follow ph1 (owns l)) = some ph' := by simpa [owns, Plan.follow] using hf
        cases h1 : P.next ph e with
        | none => rw [h1] at hf'; simp at hf'
        | some ph1 =>
          rw [h1] at hf'
          simp only [Option.bind_some] at hf'
          rcases late_stays hl h1 with h2 | h2
          · exact held_run hpath h2 hl' (held_own hpath h2 hl hw h1 hx) hf' hr hc'
          · have := dead_follow h2 hf'
            cases ph' <;> simp [late, dead] at hl' this

/-- Nobody else changes the umask. -/
theorem others_umask : ∀ {l : List Happening} {w w' : World}, owns l = [] → S.run w l = some w' → w'.umask = w.umask
  | [], w, w', _, h => by simp [Site.run] at h; rw [h]
  | .inl e :: l, w, w', ho, _ => by simp [owns] at ho
  | .inr (c, a) :: l, w, w', ho, h => by
    simp only [Site.run, Site.happens] at h
    split at h
    · simp only [Option.bind_some] at h
      rw [others_umask (by simpa [owns] using ho) h]
      cases a <;> rfl
    · simp at h

/-- Whoever waits to be accepted has connected. -/
theorem run_queue : ∀ {l : List Happening} {w w' : World}, S.run w l = some w' → ∀ c ∈ w'.queue,
    c ∈ w.queue ∨ .inr (c, .connect) ∈ l
  | [], w, w', h, c, hc => by simp [Site.run] at h; exact .inl (h ▸ hc)
  | x :: l, w, w', h, c, hc => by
    simp only [Site.run] at h
    cases hx : S.happens w x with
    | none => rw [hx] at h; simp at h
    | some w1 =>
      rw [hx] at h
      rcases run_queue h c hc with h1 | h1
      · cases x with
        | inl e =>
          left
          simp only [Site.happens] at hx
          unfold Site.own at hx
          split at hx <;> (try split at hx) <;> (try split at hx) <;> (try split at hx) <;> simp at hx <;>
            (try subst hx) <;> (try split at h1) <;> simp_all
        | inr y =>
          obtain ⟨c', a⟩ := y
          simp only [Site.happens] at hx
          split at hx
          · simp only [Option.some.injEq] at hx
            subst hx
            cases a <;> simp [World.act] at h1 <;> simp [h1]
            exact h1.imp_right fun h => .inl h
          · simp at hx
      · exact .inr (List.mem_cons_of_mem _ h1)

/-! ### C67 -/

/-- Those whose approval counts: the superuser; the target user, for sudo to a user; the members of the target
group, for `sudo -g`. -/
def Vouched (env : IoEnv) (c : Cred) : Prop :=
  c.uid = 0 ∨
  (env.userInfo.uid ≠ env.commandInfo.runasEuid ∧ env.settings.runasGroup = none ∧
    c.uid = env.commandInfo.runasEuid) ∨
  (env.userInfo.uid = env.commandInfo.runasEuid ∧ env.settings.runasGroup ≠ none ∧
    env.commandInfo.runasEgid ∈ c.groups)

/-- Those who have to be trusted not to interfere: the superuser, the user whose process the plugin runs in, and
the target user, for sudo to a user. -/
def Insider (rt : Rt) (env : IoEnv) (c : Cred) : Prop :=
  c.uid = 0 ∨ c.uid = rt.euid ∨
  (env.userInfo.uid ≠ env.commandInfo.runasEuid ∧ c.uid = env.commandInfo.runasEuid)

theorem and_777_022 {a b : Nat} (h : a &&& 0o777 = b &&& 0o777) (ha : a &&& 0o022 = 0) : b &&& 0o022 = 0 := by
  have h1 : ∀ x : Nat, x &&& 0o022 = (x &&& 0o777) &&& 0o022 := fun x => by rw [Nat.and_assoc]; rfl
  rw [h1, ← h, ← h1, ha]

theorem snoc_of_append_cons {pre' mid g : Hist} {x y : Ev} (h : g ++ [y] = pre' ++ x :: mid) (hne : x ≠ y) :
    ∃ mid0, mid = mid0 ++ [y] ∧ g = pre' ++ x :: mid0 := by
  rcases mid.eq_nil_or_concat with rfl | ⟨m, z, rfl⟩
  · have := List.append_inj' h (by simp)
    simp at this; exact absurd this.2.symm hne
  · have h' : g ++ [y] = (pre' ++ x :: m) ++ [z] := by simpa using h
    obtain ⟨h1, h2⟩ := List.append_inj' h' rfl
    simp at h2
    exact ⟨m, by simp [h2], h1⟩

/-- C67: whatever other processes do in between, within the permissions they have, and however the directory was
before: the peer of a connection that the plugin accepts on the approval socket is the superuser, or the target
user, or holds the target group, and has connected since the inspection of the directory; or else an insider has
interfered since then.

The target ids 4294967295 are excluded as in C11. -/
theorem C67_peer {rt : Rt} {a : OpenArgs} {st : State} {o} {h : Hist}
    (hr : Runs (Core.open rt a st) o h) {env0 : IoEnv}
    (hnew : IoEnv.new rt a = some (.ok env0)) {env : IoEnv} (henv : env = st.env.getD env0)
    (hu : env.commandInfo.runasEuid ≠ noId ∨ rt.euid = 0)
    (hg : env.userInfo.uid = env.commandInfo.runasEuid → env.commandInfo.runasEgid ≠ noId)
    {S : Site} (hS : S.path = sessionPath env) (hSe : S.euid = rt.euid)
    (hSd : ∀ d, SamePath d (PluginOptions.ofMap env.pluginOptions).socketDir → S.isDir d = true)
    {l l3 : List Happening} {fd : Nat} {conn : Conn} (hl : owns (l ++ .inl ⟨.accept fd, some conn⟩ :: l3) = h)
    {w w' : World} (hw : S.run w (l ++ .inl ⟨.accept fd, some conn⟩ :: l3) = some w') :
    ∃ l1 d fst l2, l = l1 ++ .inl ⟨.stat d, some fst⟩ :: l2 ∧
      SamePath d (PluginOptions.ofMap env.pluginOptions).socketDir ∧ fst.uid = rt.euid ∧ fst.mode &&& 0o022 = 0 ∧
      ((Vouched env conn.peer ∧ .inr (conn.peer, .connect) ∈ l2) ∨ ∃ c a, .inr (c, a) ∈ l2 ∧ a.Meddles ∧ Insider rt env c) := by
  obtain ⟨ph, hph⟩ := order_runs hr hnew
  have hE : effEnv st env0 = env := henv.symm
  rw [hE] at hph
  generalize hP : planOf (Pair.ofEnv env) ((Pair.ofEnv env).socketMode.getD 0) = P at hph
  have hpath : P.path = S.path := by rw [← hP, hS, ← sessionPath_eq]; rfl
  obtain ⟨x, y, hox, rfl⟩ : ∃ x y, owns l = x ∧ h = x ++ ⟨.accept fd, some conn⟩ :: y := by
    rw [owns_append] at hl
    exact ⟨_, owns l3, rfl, hl.symm⟩
  rw [run_append] at hw
  cases hw1 : S.run w l with
  | none => rw [hw1] at hw; simp at hw
  | some w4 =>
  rw [hw1] at hw
  simp only [Option.bind_some, Site.run, Site.happens] at hw
  cases o4 : S.own w4 ⟨.accept fd, some conn⟩ with
  | none => rw [o4] at hw; simp at hw
  | some w4' =>
  rw [follow_append] at hph
  cases hx : P.follow .start x with
  | none => rw [hx] at hph; simp at hph
  | some ph1 =>
  rw [hx] at hph
  simp only [Option.bind_some, Plan.follow] at hph
  cases hx1 : P.next ph1 ⟨.accept fd, some conn⟩ with
  | none => rw [hx1] at hph; simp at hph
  | some ph2 =>
  obtain ⟨old, rfl⟩ := next_accept hx1
  obtain ⟨h1, h2, old', fd', rfl, k1, k2⟩ := follow_late (by rfl) (by rfl) hx
  rcases h1.eq_nil_or_concat with rfl | ⟨g, e, rfl⟩
  · simp [Plan.follow] at k1
  obtain ⟨phm, -, k3⟩ := follow_snoc (by simpa using k1)
  have he := next_masked k3
  subst he
  have hr' : Runs (Core.step rt (.open a) st) o ((g ++ [⟨.umask 0o777, old'⟩]) ++ ⟨.bind P.path, .bound fd'⟩ ::
      (h2 ++ ⟨.accept fd, some conn⟩ :: y)) := by simpa [Core.step] using hr
  obtain ⟨a', env1, d, fst, pre', mid, ha', hn', -, hpre, hsame, -, hfu, hfm, -⟩ := C16_vetted_partial hr'
  simp only [Core.Call.open.injEq] at ha'
  subst ha'
  rw [hnew] at hn'
  simp only [Option.some.injEq, Except.ok.injEq] at hn'
  subst hn'
  rw [← henv] at hsame
  obtain ⟨mid0, rfl, rfl⟩ := snoc_of_append_cons hpre (by simp)
  have hl' : owns l = pre' ++ ⟨.stat d, some fst⟩ :: (mid0 ++ ⟨.umask 0o777, old'⟩ ::
      ([] ++ ⟨.bind P.path, .bound fd'⟩ :: h2)) := by rw [hox]; simp
  obtain ⟨l1, la, w1, w1', rfl, -, ha, r1, o1, ra⟩ := run_split hl' hw1
  obtain ⟨lb, lc, w2, w2', rfl, -, hc, r2, o2, rc⟩ := run_split ha ra
  obtain ⟨ld, lf, w3, w3', rfl, hld, hlf, r3, o3, r4⟩ := run_split hc rc
  refine ⟨l1, d, fst, lb ++ .inl ⟨.umask 0o777, old'⟩ :: (ld ++ .inl ⟨.bind P.path, .bound fd'⟩ :: lf), rfl, hsame, hfu, hfm, ?_⟩
  refine Classical.byContradiction fun hnot => ?_
  rw [not_or] at hnot
  obtain ⟨hnv, hni⟩ := hnot
  -- who may interfere
  have hin : ∀ c, Trusted S P c → Insider rt env c := by
    intro c hc
    rcases hc with hc | hc | hc
    · exact .inl hc
    · exact .inr (.inl (hc.trans hSe))
    · simp only [lastNode] at hc
      split at hc
      · exact .inr (.inl (hc.trans hSe))
      · rename_i hno
        have hPu : P.uid = (Pair.ofEnv env).socketUid := by rw [← hP]; rfl
        rw [hPu] at hc hno
        unfold Pair.socketUid at hc hno
        split at hc
        · rename_i htu
          exact .inr (.inr ⟨of_decide_eq_true htu, hc⟩)
        · rename_i htu
          exact absurd (by simp [htu, noId]) hno
  have hcalm : ∀ {l'}, (∀ z ∈ l', z ∈ lb ++ .inl ⟨.umask 0o777, old'⟩ ::
      (ld ++ .inl ⟨.bind P.path, .bound fd'⟩ :: lf)) → Calm (Trusted S P) l' :=
    fun hsub c a hm hme ht => hni ⟨c, a, hsub _ hm, hme, hin c ht⟩
  have h0 : ∀ c : Cred, c.uid = 0 ∨ c.uid = S.euid → Trusted S P c := fun c h => h.elim .inl (.inr ∘ .inl)
  -- the directory, from its inspection on
  have d1 : DirGood S.euid w1' := by
    simp only [Site.own, hSd d hsame, true_and] at o1
    split at o1
    · simp at o1
    · rename_i hgood
      rw [Decidable.not_not] at hgood
      simp only [Option.some.injEq] at o1
      subst o1
      exact ⟨by rw [← hgood.1, hfu, hSe], and_777_022 hgood.2 hfm⟩
  have d2 : DirGood S.euid w2 := run_dir h0 d1 (hcalm fun z hz => by simp [hz]) r2
  have u2 : w2'.umask = 0o777 := by
    simp only [Site.own] at o2
    split at o2
    · simp only [Option.some.injEq] at o2; subst o2; rfl
    · simp at o2
  have d2' : DirGood S.euid w2' := by
    obtain ⟨j1, _, j3⟩ := own_dir o2
    exact ⟨j1.trans d2.1, by rw [j3]; exact d2.2⟩
  have d3 : DirGood S.euid w3 := run_dir h0 d2' (hcalm fun z hz => by simp [hz]) r3
  have u3 : w3.umask = 0o777 := (others_umask hld r3).trans u2
  -- the socket
  have hqu : w3'.queue = [] := by
    simp only [Site.own, hpath, ne_eq, not_true_eq_false, if_false] at o3
    split at o3
    · simp only [Option.some.injEq] at o3; subst o3; rfl
    · simp at o3
  have held : Held S P (.bound old' fd') w3' := by
    have d3' : DirGood S.euid w3' := by
      obtain ⟨j1, _, j3⟩ := own_dir o3
      exact ⟨j1.trans d3.1, by rw [j3]; exact d3.2⟩
    simp only [Site.own, hpath, ne_eq, not_true_eq_false, if_false] at o3
    split at o3
    · simp only [Option.some.injEq] at o3
      subst o3
      exact ⟨d3', rfl, by simp [u3, nodeIn], by simp⟩
    · simp at o3
  have held4 := held_run (ph' := .ready old fd) hpath rfl rfl held (by rw [hlf]; exact k2) r4 (hcalm fun z hz => by simp [hz])
  -- the peer
  have hq0 : conn.peer ∈ w4.queue := by
    simp only [Site.own] at o4
    split at o4
    · split at o4
      · simp at o4
      · rename_i hq
        split at o4
        · rename_i hcp
          rw [hq, hcp]; simp
        · simp at o4
    · simp at o4
  have hco : Sum.inr (conn.peer, .connect) ∈ lb ++ .inl ⟨.umask 0o777, old'⟩ ::
      (ld ++ .inl ⟨.bind P.path, .bound fd'⟩ :: lf) := by
    rcases run_queue r4 _ hq0 with h1 | h1
    · rw [hqu] at h1; simp at h1
    · simp [h1]
  have hnv : ¬ Vouched env conn.peer := fun h => hnv ⟨h, hco⟩
  have hq := held4.queue _ hq0
  rcases hq with hq | hq
  · exact hnv (.inl hq)
  by_cases hroot : conn.peer.uid = 0
  · exact hnv (.inl hroot)
  rcases coreOpen_phases hr with hQ | ⟨env2, p2, _, _, _, mode, _, hn2, rfl, -, -, hboth, -, hmode, -⟩
  · exact hQ ⟨.accept fd, some conn⟩ (by simp)
  · rw [hnew] at hn2
    simp only [Option.some.injEq, Except.ok.injEq] at hn2
    subst hn2
    rw [hE] at hboth hmode
    have hm : P.mode = mode := by rw [← hP]; simp [planOf, hmode]
    refine hnv (.inr (sealed_reach (p := Pair.ofEnv env) (grp := S.grp) (s := ⟨0, some (lastNode S P)⟩) hboth hmode ?_ rfl
      hu hg hroot ?_))
    · intro n hn
      simp only [Option.some.injEq] at hn
      subst hn
      right
      rw [← hm, ← hSe, lastNode, ← hP]; rfl
    · unfold Node.connectable
      unfold Node.connects at hq
      split at hq <;> (try split at hq) <;> simp_all

theorem open_env {rt a st st' r h env0} (hr : Runs (Core.open rt a st) (.ok (r, st')) h)
    (hnew : IoEnv.new rt a = some (.ok env0)) : st'.env = some (effEnv st env0) := by
  generalize ho : Out.ok (r, st') = o at hr
  cases coreOpen_runs hr <;> simp only [Out.ok.injEq, Prod.mk.injEq, reduceCtorEq] at ho <;> obtain ⟨rfl, rfl⟩ := ho <;>
    simp_all [withEnv, effEnv]

/-- C67: so whoever approves a session is the superuser, or the target user, or holds the target group, unless an
insider interferes: a session that is not exempt and is accepted has been answered `y` or `Y` over a connection
from such a peer.

The target ids 4294967295 are excluded as in C11, empty commands as in C01. -/
theorem C67_approved {rt : Rt} {a : OpenArgs} {st st' : State} {h : Hist}
    (hr : Runs (Core.open rt a st) (.ok (1, st')) h) {env : IoEnv} (henv : st'.env = some env)
    (hcmd : env.commandInfo.command ≠ []) (hx : ¬ SessionExempt env)
    (hu : env.commandInfo.runasEuid ≠ noId ∨ rt.euid = 0)
    (hg : env.userInfo.uid = env.commandInfo.runasEuid → env.commandInfo.runasEgid ≠ noId)
    {S : Site} (hS : S.path = sessionPath env) (hSe : S.euid = rt.euid)
    (hSd : ∀ d, SamePath d (PluginOptions.ofMap env.pluginOptions).socketDir → S.isDir d = true)
    {l : List Happening} (hl : owns l = h) {w w' : World} (hw : S.run w l = some w') :
    ∃ l1 d fst l2 fd conn l3 reply b l4,
      l = l1 ++ .inl ⟨.stat d, some fst⟩ :: (l2 ++ .inl ⟨.accept fd, some conn⟩ :: (l3 ++ .inl reply :: l4)) ∧
      Read1 b conn.fd reply ∧ (b = (Char.toNat 'y').toUInt8 ∨ b = (Char.toNat 'Y').toUInt8) ∧
      ((Vouched env conn.peer ∧ .inr (conn.peer, .connect) ∈ l2) ∨ ∃ c a, .inr (c, a) ∈ l2 ∧ a.Meddles ∧ Insider rt env c) := by
  obtain ⟨env0, hnew⟩ : ∃ env0, IoEnv.new rt a = some (.ok env0) := by
    generalize ho : Out.ok ((1 : Int), st') = o at hr
    cases coreOpen_runs hr <;> first | (simp at ho; done) | exact ⟨_, ‹_›⟩
  obtain ⟨fd, before, between, after, lis, conn, reply, b, t, pr, rfl, rfl, -, -, -, -, -, -, hb, hy⟩ :=
    C01_approval_partial rt a st st' env h hr henv hcmd hx
  have he : env = st.env.getD env0 := by
    have := open_env hr hnew
    rw [henv] at this
    simpa [effEnv] using this
  obtain ⟨la, lb, rfl, -, h2⟩ := owns_split hl
  obtain ⟨l3, l4, rfl, -, -⟩ := owns_split h2
  obtain ⟨l1, d, fst, l2, rfl, -, -, -, h3⟩ := C67_peer hr hnew he hu hg hS hSe hSd hl hw
  exact ⟨l1, d, fst, l2, lis, conn, l3, reply, b, l4, by simp, hb, hy, h3⟩

/-- C67: nobody approves their own session: if no other process than those of the invoking user is around, the
user is not the superuser, nor the one whose process the plugin runs in, then the session is not accepted, unless
it is exempt or `sudo -g` to a group that the user holds.  The same ids and commands are excluded. -/
theorem C67_not_alone {rt : Rt} {a : OpenArgs} {st st' : State} {h : Hist}
    (hr : Runs (Core.open rt a st) (.ok (1, st')) h) {env : IoEnv} (henv : st'.env = some env)
    (hcmd : env.commandInfo.command ≠ []) (hx : ¬ SessionExempt env)
    (hu : env.commandInfo.runasEuid ≠ noId ∨ rt.euid = 0)
    (hg : env.userInfo.uid = env.commandInfo.runasEuid → env.commandInfo.runasEgid ≠ noId)
    {S : Site} (hS : S.path = sessionPath env) (hSe : S.euid = rt.euid)
    (hSd : ∀ d, SamePath d (PluginOptions.ofMap env.pluginOptions).socketDir → S.isDir d = true)
    {l : List Happening} (hl : owns l = h) {w w' : World} (hw : S.run w l = some w')
    (h0 : env.userInfo.uid ≠ 0) (h1 : env.userInfo.uid ≠ rt.euid)
    (halone : ∀ x ∈ others l, x.1 = ⟨env.userInfo.uid, env.userInfo.gid :: env.userInfo.groups⟩) :
    env.settings.runasGroup ≠ none ∧
      (env.commandInfo.runasEgid = env.userInfo.gid ∨ env.commandInfo.runasEgid ∈ env.userInfo.groups) := by
  obtain ⟨l1, d, fst, l2, fd, conn, l3, reply, b, l4, rfl, -, -, h2⟩ :=
    C67_approved hr henv hcmd hx hu hg hS hSe hSd hl hw
  have hme : ∀ c a, .inr (c, a) ∈ l2 → c = ⟨env.userInfo.uid, env.userInfo.gid :: env.userInfo.groups⟩ := by
    intro c a hm
    exact halone (c, a) (List.mem_filterMap.2 ⟨.inr (c, a), by simp [hm], rfl⟩)
  rcases h2 with ⟨h2, h3⟩ | ⟨c, a, h3, -, h4⟩
  · rw [hme _ _ h3] at h2
    rcases h2 with h2 | ⟨h2, -, h4⟩ | ⟨-, h2, h4⟩
    · exact absurd h2 h0
    · exact absurd h4 h2
    · exact ⟨h2, by simpa using h4⟩
  · rw [hme _ _ h3] at h4
    rcases h4 with h4 | h4 | ⟨h4, h5⟩
    · exact absurd h4 h0
    · exact absurd h4 h1
    · exact absurd h5 h4

/-! ### Concrete cases -/

/-- As `coop`, with a umask of 022 to begin with, and a given peer who answers `y`. -/
def truly (c : Cred) : Answer
  | .umask m  => if m = 0o777 then (0o22 : Nat) else (0o777 : Nat)
  | .accept _ => some ⟨8, c⟩
  | e         => coop 121 e

/-- The history of a session, with the given actions of others after the first `k` interactions. -/
def woven (a : OpenArgs) (c : Cred) (k : Nat) (acts : List (Cred × Deed)) : List Happening :=
  let h := (Core.open sampleRt a Core.init (List.replicate 60 (truly c))).2.1
  (h.take k).map .inl ++ acts.map .inr ++ (h.drop k).map .inl

def sampleSite : Site := ⟨fun _ => true, b! "/var/run/sudo_pair/1000.42.sock", 0, 27⟩
def sampleWorld : World := ⟨0, 0, 0o755, 0o22, .empty, none, [], none⟩

theorem owns_woven (a c k acts) :
    owns (woven a c k acts) = (Core.open sampleRt a Core.init (List.replicate 60 (truly c))).2.1 := by
  have h1 : ∀ h : Hist, owns (h.map .inl) = h := by intro h; induction h <;> simp_all [owns]
  have h2 : ∀ l : List (Cred × Deed), owns (l.map .inr) = [] := by intro h; induction h <;> simp_all [owns]
  simp only [woven, owns_append, h1, h2, List.append_nil, List.take_append_drop]

/-- User 1000 runs a command as user 1001, who connects once the permissions of the socket are set, and approves. -/
example : (sampleSite.run sampleWorld (woven otherUserArgs ⟨1001, [1001]⟩ 9 [(⟨1001, [1001]⟩, .connect)])).isSome = true ∧
    retOf (Core.open sampleRt otherUserArgs Core.init (List.replicate 60 (truly ⟨1001, [1001]⟩))).1 = some 1 := by
  decide +kernel

/-- Nobody but the superuser can before: neither the target, nor the user. -/
example : (sampleSite.run sampleWorld (woven otherUserArgs ⟨1001, [1001]⟩ 8 [(⟨1001, [1001]⟩, .connect)])).isSome = false ∧
    (sampleSite.run sampleWorld (woven otherUserArgs ⟨1000, [1000, 27]⟩ 7 [(⟨1000, [1000, 27]⟩, .connect)])).isSome = false ∧
    (sampleSite.run sampleWorld (woven otherUserArgs ⟨1000, [1000, 27]⟩ 9 [(⟨1000, [1000, 27]⟩, .connect)])).isSome = false ∧
    (sampleSite.run sampleWorld (woven otherUserArgs ⟨0, [0]⟩ 7 [(⟨0, [0]⟩, .connect)])).isSome = true := by decide +kernel

/-- The exception for insiders is needed: the target user, who owns the socket, may open it to everybody, and the
user's own connection is then accepted and approves. -/
example : (sampleSite.run sampleWorld (woven otherUserArgs ⟨1000, [1000, 27]⟩ 9
      [(⟨1001, [1001]⟩, .chmodSocket 0o222), (⟨1000, [1000, 27]⟩, .connect)])).isSome = true ∧
    retOf (Core.open sampleRt otherUserArgs Core.init (List.replicate 60 (truly ⟨1000, [1000, 27]⟩))).1 = some 1 := by
  decide +kernel

/-- `sudo -g` to group 27, which the user holds: the user's own connection approves. -/
example : (sampleSite.run sampleWorld (woven (viaGroupArgs (b! "27")) ⟨1000, [1000, 27]⟩ 9
      [(⟨1000, [1000, 27]⟩, .connect)])).isSome = true ∧
    retOf (Core.open sampleRt (viaGroupArgs (b! "27")) Core.init (List.replicate 60 (truly ⟨1000, [1000, 27]⟩))).1 =
      some 1 := by decide +kernel

/-- The inspection is needed: in a directory that others may write to, the user could put another socket in the
place of the plugin's; the plugin refuses to work there. -/
example : sampleWorld.may ⟨1000, [1000, 27]⟩ (.relink .foreign) = false ∧
    ({ sampleWorld with dirMode := 0o777 } : World).may ⟨1000, [1000, 27]⟩ (.relink .foreign) = true ∧
    (sampleSite.run { sampleWorld with dirMode := 0o777 } (woven otherUserArgs ⟨1001, [1001]⟩ 9
      [(⟨1001, [1001]⟩, .connect)])).isSome = false := by decide +kernel

/-- The hypotheses of C67 are met. -/
example : ∃ env st' h l w', Runs (Core.open sampleRt otherUserArgs Core.init) (.ok (1, st')) h ∧
    st'.env = some env ∧ env.commandInfo.command ≠ [] ∧ ¬ SessionExempt env ∧
    env.commandInfo.runasEuid ≠ noId ∧ env.userInfo.uid ≠ env.commandInfo.runasEuid ∧
    sampleSite.path = sessionPath env ∧ sampleSite.euid = sampleRt.euid ∧
    (∀ d, SamePath d (PluginOptions.ofMap env.pluginOptions).socketDir → sampleSite.isDir d = true) ∧
    owns l = h ∧ sampleSite.run sampleWorld l = some w' ∧ others l = [(⟨1001, [1001]⟩, .connect)] ∧
    env.userInfo.uid ≠ 0 ∧ env.userInfo.uid ≠ sampleRt.euid := by
  have h1 : retOf (Core.open sampleRt otherUserArgs Core.init (List.replicate 60 (truly ⟨1001, [1001]⟩))).1 = some 1 := by
    decide +kernel
  have hw : (sampleSite.run sampleWorld (woven otherUserArgs ⟨1001, [1001]⟩ 9 [(⟨1001, [1001]⟩, .connect)])).isSome = true := by
    decide +kernel
  have ho : others (woven otherUserArgs ⟨1001, [1001]⟩ 9 [(⟨1001, [1001]⟩, .connect)]) = [(⟨1001, [1001]⟩, .connect)] := by
    decide +kernel
  have hl := owns_woven otherUserArgs ⟨1001, [1001]⟩ 9 [(⟨1001, [1001]⟩, .connect)]
  obtain ⟨w', hw⟩ := Option.isSome_iff_exists.1 hw
  rcases hc : Core.open sampleRt otherUserArgs Core.init (List.replicate 60 (truly ⟨1001, [1001]⟩)) with
    ⟨⟨r, st'⟩ | _ | _, h, s⟩ <;> rw [hc] at h1 hl <;> simp only [retOf, Option.some.injEq, reduceCtorEq] at h1
  subst h1
  have h5 : ((IoEnv.new sampleRt otherUserArgs).bind Except.toOption).map
      (fun env => (env.commandInfo.command, (Pair.ofEnv env).isExempt false, (Pair.ofEnv env).socketPath,
        env.commandInfo.runasEuid, env.userInfo.uid)) =
      some (b! "/bin/ls", some false, b! "/var/run/sudo_pair/1000.42.sock", 1001, 1000) := by decide +kernel
  rcases hn : IoEnv.new sampleRt otherUserArgs with _ | (e | env) <;> rw [hn] at h5
  · simp at h5
  · simp [Except.toOption] at h5
  · simp only [Except.toOption, Option.bind_some, Option.map_some, Option.some.injEq, Prod.mk.injEq] at h5
    obtain ⟨h6, h7, h8, h9, h10⟩ := h5
    refine ⟨env, st', h, _, w', runs_of hc, open_env (runs_of hc) hn, by rw [h6]; simp, fun hx => ?_, by rw [h9]; decide,
      by rw [h9, h10]; decide, h8.symm.trans (sessionPath_eq env), rfl, fun _ _ => rfl, hl, hw, ho, by rw [h10]; decide, by rw [h10]; decide⟩
    have := (C04_release (Pair.ofEnv env)).2 hx
    rw [h7] at this; simp at this

end SudoPair
