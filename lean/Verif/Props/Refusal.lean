import Verif.Props.Protocol
import Verif.Spec.Refusal
/-
C68: when a session is refused, and which sessions can be allowed at all.
-/
namespace SudoPair
open Spec

namespace Refusal

def yes (b : UInt8) : Prop := b = 121 ∨ b = 89

instance (b : UInt8) : Decidable (yes b) := by unfold yes; infer_instance

/-- A reply to a write of `buf` that is neither a failure nor absurd. -/
def goodWrite (buf : Bytes) : WriteRes → Prop
  | .intr => True
  | .fail => False
  | .wrote n => 0 < n ∧ n ≤ buf.length

/-- The errand belongs to a handshake that is going well. -/
def goodErrand : Errand → Prop
  | .prompt _ | .flush | .answer => True
  | .echo b _ | .newline b _ => yes b
  | .mirror _ => False

def goodCame : Errand → Came → Prop
  | .prompt rest, .wrote r => goodWrite rest r
  | .flush, .flushed => True
  | .answer, .byte (some b) => yes b
  | .echo _ _, .wrote _ => True
  | .newline _ _, .wrote _ => True
  | _, _ => False

/-- The handshake is going well. -/
def Fine (S : Session) : Step → Prop
  | .over v => v ≠ .refused
  | .userFile | .ttyOpen _ _ | .tty _ _ | .tell _ | .vet _ | .look | .stale | .mask | .bind _ => True
  | .own _ fd | .permit _ fd _ => fd < S.fds
  | .wait _ _ | .admit _ _ => True
  | .tidy _ c | .remove _ c | .unmask _ c => c ≠ none
  | .pairFile _ => True
  | .guard _ e | .arm _ e _ => goodErrand e
  | .act _ e _ => goodErrand e ∧ e ≠ .flush
  | .disarm _ e _ c => goodErrand e ∧ goodCame e c
  | .spare _ => True
  | _ => False

/-- The answer was no. -/
def badErrand : Errand → Prop
  | .echo b _ | .newline b _ => ¬ yes b
  | _ => False

def badCame : Errand → Came → Prop
  | .prompt rest, c => ¬ goodCame (.prompt rest) c
  | .answer, c => ¬ goodCame .answer c
  | .echo b _, _ | .newline b _, _ => ¬ yes b
  | _, _ => False

/-- The session will be refused. -/
def Doomed (S : Session) : Step → Prop
  | .over v => v = .refused
  | .say _ _ _ v => v = .refused
  | .own _ fd | .permit _ fd _ => S.fds ≤ fd
  | .tidy _ c | .remove _ c | .unmask _ c => c = none
  | .guard _ e | .arm _ e _ | .act _ e _ => badErrand e
  | .disarm _ e _ c => badCame e c
  | .hangup _ _ => True
  | _ => False

variable {S : Session}

theorem doomed_says {can level} : ∀ l, Doomed S (.says can level .refused l)
  | [] => rfl
  | t :: l => by
    unfold Step.says
    split
    · exact doomed_says l
    · split <;> rfl

theorem doomed_move {x : Step} {c : Sys} {k : Resp c → Step} (hd : Doomed S x) (hm : S.move x = .call c k) (r : Resp c) :
    Doomed S (k r) := by
  have hdel : ∀ {again done failed absurd rest r}, (∀ t, Doomed S (again t)) → Doomed S done → Doomed S failed →
      Doomed S absurd → Doomed S (deliver again done failed absurd rest r) := by
    intro again done failed absurd rest r h1 h2 h3 h4
    cases r <;> simp only [deliver]
    · split
      · exact h3
      · split
        · exact h1 _
        · split
          · exact h2
          · exact h4
    · exact h1 _
    · exact h3
  have hdec : ∀ fd b, ¬ yes b → Doomed S (S.decide fd b) := by
    intro fd b hb
    have hb' : ¬ (b = 121 ∨ b = 89) := hb
    simp [Session.decide, hb', Doomed]
  have haf : ∀ fd e c, badCame e c → Doomed S (S.after fd e c) := by
    intro fd e c h
    cases e with
    | prompt rest =>
      cases c <;> simp only [Session.after] <;> try trivial
      rename_i r
      cases r <;> simp only [deliver, badCame, goodCame, goodWrite] at h ⊢ <;> (repeat' split) <;> simp_all [Doomed] <;> omega
    | answer =>
      cases c <;> simp only [Session.after] <;> try trivial
      rename_i b
      cases b <;> simp only [] <;> first | trivial | exact h
    | echo b rest =>
      cases c <;> simp only [Session.after] <;> first | exact h | exact hdel (fun _ => h) h h trivial
    | newline b rest =>
      cases c <;> simp only [Session.after] <;> first | exact hdec _ _ h | exact hdel (fun _ => h) (hdec _ _ h) (hdec _ _ h) trivial
    | _ => exact h.elim
  have hbad : ∀ fd e, badErrand e → Doomed S (S.after fd e .failed) := by
    intro fd e h
    cases e <;> first | exact h.elim | exact haf _ _ _ h
  cases x with
  | over v => simp [Session.move] at hm
  | say level text more v =>
    have hv : v = .refused := hd
    subst hv
    simp only [Session.move, Move.call.injEq] at hm
    obtain ⟨rfl, hk⟩ := hm
    cases eq_of_heq hk
    exact hdel (fun _ => rfl) (doomed_says _) rfl rfl
  | own old fd =>
    simp only [Session.move, Move.call.injEq] at hm
    obtain ⟨rfl, hk⟩ := hm
    cases eq_of_heq hk
    cases r <;> cases S.mode <;> first | rfl | exact hd
  | permit old fd mode =>
    simp only [Session.move, Move.call.injEq] at hm
    obtain ⟨rfl, hk⟩ := hm
    cases eq_of_heq hk
    have hlt : ¬ fd < S.fds := Nat.not_lt.2 hd
    cases r <;> simp [hlt, Doomed]
  | tidy old c =>
    have hc : c = none := hd
    subst hc
    simp only [Session.move, Move.call.injEq] at hm
    obtain ⟨rfl, hk⟩ := hm
    cases eq_of_heq hk
    dsimp only; split <;> rfl
  | remove old c =>
    have hc : c = none := hd
    subst hc
    simp only [Session.move, Move.call.injEq] at hm
    obtain ⟨rfl, hk⟩ := hm
    cases eq_of_heq hk
    rfl
  | unmask old c =>
    have hc : c = none := hd
    subst hc
    simp only [Session.move, Move.call.injEq] at hm
    obtain ⟨rfl, hk⟩ := hm
    cases eq_of_heq hk
    exact doomed_says _
  | guard fd e =>
    simp only [Session.move, Move.call.injEq] at hm
    obtain ⟨rfl, hk⟩ := hm
    cases eq_of_heq hk
    cases r
    · exact hbad _ _ hd
    · exact hd
  | arm fd e old =>
    simp only [Session.move, Move.call.injEq] at hm
    obtain ⟨rfl, hk⟩ := hm
    cases eq_of_heq hk
    cases r
    · exact hbad _ _ hd
    · cases e <;> first | exact hd | exact hd.elim
  | act fd e old =>
    cases e <;> first | exact hd.elim | skip
    all_goals
      simp only [Session.move, Move.call.injEq] at hm
      obtain ⟨rfl, hk⟩ := hm
      cases eq_of_heq hk
      exact hd
  | disarm fd e old c =>
    simp only [Session.move, Move.call.injEq] at hm
    obtain ⟨rfl, hk⟩ := hm
    cases eq_of_heq hk
    dsimp only
    split
    · exact haf _ _ _ hd
    · refine haf _ _ _ ?_
      cases e <;> simp only [badCame, goodCame] at hd ⊢ <;> first | exact hd | exact fun h => h
  | hangup fd why =>
    simp only [Session.move, Move.call.injEq] at hm
    obtain ⟨rfl, hk⟩ := hm
    cases eq_of_heq hk
    cases why
    · rfl
    · exact doomed_says _
  | _ => exact hd.elim

theorem doomed_run : ∀ (s : Sched) {x : Step} {v : Verdict}, Doomed S x → (runMachine S.move x s).1 = .ok v → v = .refused
  | [], x, v, hd, h => by
    unfold runMachine at h
    split at h
    · rename_i r hm
      cases x <;> simp [Session.move] at hm
      · subst hm; simp at h; subst h; exact hd
      · rename_i e _
        cases e <;> simp at hm
        exact hd.elim
    · simp at h
  | a :: s, x, v, hd, h => by
    unfold runMachine at h
    split at h
    · rename_i r hm
      cases x <;> simp [Session.move] at hm
      · subst hm; simp at h; subst h; exact hd
      · rename_i e _
        cases e <;> simp at hm
        exact hd.elim
    · rename_i c k hm
      exact doomed_run s (doomed_move hd hm _) h

/-! ### What the history tells about the phase -/

def past : Errand → Prop
  | .echo _ _ | .newline _ _ => True
  | _ => False

/-- Does the reply to the errand claim too much? -/
def excess : Errand → Came → Prop
  | .echo _ rest, .wrote r | .newline _ rest, .wrote r => Overcounts rest r
  | _, _ => False

def Inv (h : Hist) : Step → Prop
  | .userFile | .ttyOpen _ _ | .tty _ _ | .tell _ | .vet _ | .look | .stale | .mask | .bind _ => ¬ HasBound h ∧ ¬ HasRead h
  | .own _ _ | .permit _ _ _ | .wait _ _ | .admit _ _ | .tidy _ _ | .remove _ _ | .unmask _ _ | .pairFile _ =>
    HasBound h ∧ ¬ HasRead h
  | .guard _ e | .act _ e _ => (HasRead h ↔ past e)
  | .arm _ e _ => (HasRead h ↔ past e) ∧ (HasRead h.dropLast ↔ past e) ∧ ¬ EndsInOvercount h
  | .disarm _ e _ c => (HasRead h ↔ e = .answer ∨ past e) ∧ (HasRead h.dropLast ↔ past e) ∧ (EndsInOvercount h ↔ excess e c)
  | _ => True

theorem hasRead_snoc {h : Hist} {e : Ev} : HasRead (h ++ [e]) ↔ HasRead h ∨ ∃ fd len, e.call = .sockRead fd len := by
  simp only [HasRead, List.mem_append, List.mem_singleton]
  constructor
  · rintro ⟨x, hx | rfl, h⟩
    · exact .inl ⟨x, hx, h⟩
    · exact .inr h
  · rintro (⟨x, hx, h⟩ | h)
    · exact ⟨x, .inl hx, h⟩
    · exact ⟨e, .inr rfl, h⟩

theorem hasBound_snoc {h : Hist} {e : Ev} : HasBound (h ++ [e]) ↔ HasBound h ∨ ∃ p, e.call = .bind p := by
  simp only [HasBound, List.mem_append, List.mem_singleton]
  constructor
  · rintro ⟨x, hx | rfl, h⟩
    · exact .inl ⟨x, hx, h⟩
    · exact .inr h
  · rintro (⟨x, hx, h⟩ | h)
    · exact ⟨x, .inl hx, h⟩
    · exact ⟨e, .inr rfl, h⟩

theorem ends_snoc {h : Hist} {e : Ev} :
    EndsInOvercount (h ++ [e]) ↔ ∃ fd buf r, e = (⟨.sockWrite fd buf, r⟩ : Ev) ∧ Overcounts buf r := by
  constructor
  · rintro ⟨h', fd, buf, r, he, ho⟩
    have := List.append_inj' he rfl
    exact ⟨fd, buf, r, by simpa using this.2, ho⟩
  · rintro ⟨fd, buf, r, rfl, ho⟩
    exact ⟨h, fd, buf, r, rfl, ho⟩

/-- A session whose socket has a place and a mode. -/
structure Eligible (S : Session) : Prop where
  mode : ∃ m, S.mode = some m
  dir  : ∃ d, S.dir = some d ∧ (0 : UInt8) ∉ d
  path : (0 : UInt8) ∉ S.path

theorem connect_eligible (he : Eligible S) : ∃ d, S.connect = .vet d := by
  obtain ⟨m, hm⟩ := he.mode
  obtain ⟨d, hd, h0⟩ := he.dir
  exact ⟨d, by simp [Session.connect, hm, hd, h0]⟩

theorem tell_eligible (he : Eligible S) (t : Bytes) : (∃ d, S.tell t = .vet d) ∨ S.tell t = .tell t := by
  obtain ⟨d, hd⟩ := connect_eligible he
  unfold Session.tell
  split
  · exact .inl ⟨d, hd⟩
  · split
    · exact .inr rfl
    · exact .inl ⟨d, hd⟩

theorem doomed_failed : Doomed S S.failed := doomed_says _

theorem step (he : Eligible S) {hp : Hist} {y : Step} {c : Sys} {k : Resp c → Step} (hf : Fine S y) (hi : Inv hp y)
    (hm : S.move y = .call c k) (r : Resp c) :
    (Mishap S.root S.fds hp ⟨c, r⟩ → Doomed S (k r)) ∧
    (¬ Mishap S.root S.fds hp ⟨c, r⟩ → Fine S (k r) ∧ Inv (hp ++ [⟨c, r⟩]) (k r)) := by
  obtain ⟨m, hmode⟩ := he.mode
  obtain ⟨d, hdir, h0⟩ := he.dir
  obtain ⟨d', hcon⟩ := connect_eligible he
  have htell : ∀ t h, ¬ HasBound h ∧ ¬ HasRead h → Fine S (S.tell t) ∧ Inv h (S.tell t) := by
    intro t h hh
    rcases tell_eligible he t with ⟨d, hd⟩ | hd <;> rw [hd] <;> exact ⟨trivial, hh⟩
  have hconn : ∀ h, ¬ HasBound h ∧ ¬ HasRead h → Fine S S.connect ∧ Inv h S.connect := by
    intro h hh
    rw [hcon]; exact ⟨trivial, hh⟩
  have hdec : ∀ h fd b, yes b → Fine S (S.decide fd b) ∧ Inv h (S.decide fd b) := by
    intro h fd b hb
    have hb' : b = 121 ∨ b = 89 := hb
    unfold Session.decide
    rw [if_pos hb']
    split
    · exact ⟨trivial, trivial⟩
    · exact ⟨fun h => (nomatch h), trivial⟩
  have hstop' : ∀ fd e, goodErrand e → (¬ past e → Doomed S (S.after fd e .failed)) ∧ True := by
    intro fd e hfe
    refine ⟨fun h => ?_, trivial⟩
    cases e <;> first | trivial | exact (h trivial).elim | exact hfe.elim
  have hstop : ∀ fd e h, goodErrand e → (HasRead h ↔ past e) → (¬ past e → Doomed S (S.after fd e .failed)) ∧
      (¬ ¬ past e → Fine S (S.after fd e .failed) ∧ Inv h (S.after fd e .failed)) := by
    intro fd e h hfe hh
    refine ⟨(hstop' fd e hfe).1, fun hp => ?_⟩
    have hp := Classical.not_not.1 hp
    cases e <;> first | exact hp.elim | skip
    · exact ⟨hfe, hh⟩
    · exact hdec _ _ _ hfe
  have hexcess : ∀ {again : Bytes → Step} {done : Step} {rest : Bytes} {r : WriteRes} {h : Hist} {fd : Nat},
      (∀ t, Fine S (again t) ∧ Inv h (again t)) → Fine S done ∧ Inv h done →
      (Overcounts rest r → Doomed S (deliver again done done (.hangup fd none) rest r)) ∧
      (¬ Overcounts rest r → Fine S (deliver again done done (.hangup fd none) rest r) ∧
        Inv h (deliver again done done (.hangup fd none) rest r)) := by
    intro again done rest r h fd h1 h2
    constructor
    · rintro ⟨n, rfl, hn⟩
      simp only [deliver]
      rw [if_neg (by omega), if_neg (by omega), if_neg (by omega)]
      trivial
    · intro hno
      cases r with
      | intr => exact h1 _
      | fail => exact h2
      | wrote n =>
        have : ¬ rest.length < n := fun h => hno ⟨n, rfl, h⟩
        simp only [deliver]
        split
        · exact h2
        · split
          · exact h1 _
          · rw [if_pos (by omega)]; exact h2
  cases y with
  | userFile =>
    simp only [Session.move, Move.call.injEq] at hm
    obtain ⟨rfl, hk⟩ := hm
    cases eq_of_heq hk
    refine ⟨fun h => h.elim, fun _ => ?_⟩
    have hh : ¬ HasBound (hp ++ [⟨.readFile S.userFile, r⟩]) ∧ ¬ HasRead (hp ++ [⟨.readFile S.userFile, r⟩]) := by
      simpa [Inv, hasRead_snoc, hasBound_snoc] using hi
    dsimp only
    split
    · exact htell _ _ hh
    · exact ⟨trivial, hh⟩
  | ttyOpen tty text =>
    simp only [Session.move, Move.call.injEq] at hm
    obtain ⟨rfl, hk⟩ := hm
    cases eq_of_heq hk
    refine ⟨fun h => h.elim, fun _ => ?_⟩
    have hh : ¬ HasBound (hp ++ [⟨.ttyOpen tty, r⟩]) ∧ ¬ HasRead (hp ++ [⟨.ttyOpen tty, r⟩]) := by
      simpa [Inv, hasRead_snoc, hasBound_snoc] using hi
    dsimp only
    split
    · split
      · exact hconn _ hh
      · exact ⟨trivial, hh⟩
    · exact htell _ _ hh
  | tty text rest =>
    simp only [Session.move, Move.call.injEq] at hm
    obtain ⟨rfl, hk⟩ := hm
    cases eq_of_heq hk
    have hh : ¬ HasBound (hp ++ [⟨.ttyWrite rest, r⟩]) ∧ ¬ HasRead (hp ++ [⟨.ttyWrite rest, r⟩]) := by
      simpa [Inv, hasRead_snoc, hasBound_snoc] using hi
    constructor
    · rintro ⟨n, rfl, hn⟩
      simp only [deliver]
      rw [if_neg (by omega), if_neg (by omega), if_neg (by omega)]
      rfl
    · intro hno
      cases r with
      | intr => exact ⟨trivial, hh⟩
      | fail => exact htell _ _ hh
      | wrote n =>
        have : ¬ rest.length < n := fun h => hno ⟨n, rfl, h⟩
        simp only [deliver]
        split
        · exact htell _ _ hh
        · split
          · exact ⟨trivial, hh⟩
          · rw [if_pos (by omega)]; exact hconn _ hh
  | tell rest =>
    simp only [Session.move, Move.call.injEq] at hm
    obtain ⟨rfl, hk⟩ := hm
    cases eq_of_heq hk
    have hh : ¬ HasBound (hp ++ [⟨.printf 3 rest, r⟩]) ∧ ¬ HasRead (hp ++ [⟨.printf 3 rest, r⟩]) := by
      simpa [Inv, hasRead_snoc, hasBound_snoc] using hi
    constructor
    · rintro ⟨n, rfl, hn⟩
      simp only [deliver]
      rw [if_neg (by omega), if_neg (by omega), if_neg (by omega)]
      rfl
    · intro hno
      cases r with
      | intr => exact ⟨trivial, hh⟩
      | fail => exact hconn _ hh
      | wrote n =>
        have : ¬ rest.length < n := fun h => hno ⟨n, rfl, h⟩
        simp only [deliver]
        split
        · exact hconn _ hh
        · split
          · exact ⟨trivial, hh⟩
          · rw [if_pos (by omega)]; exact hconn _ hh
  | vet d =>
    simp only [Session.move, Move.call.injEq] at hm
    obtain ⟨rfl, hk⟩ := hm
    cases eq_of_heq hk
    have hh : ¬ HasBound (hp ++ [⟨.stat d, r⟩]) ∧ ¬ HasRead (hp ++ [⟨.stat d, r⟩]) := by
      simpa [Inv, hasRead_snoc, hasBound_snoc] using hi
    cases r with
    | none => exact ⟨fun _ => doomed_failed, fun h => (h (fun st hst => nomatch hst)).elim⟩
    | some st =>
      dsimp only
      by_cases hv : S.vetted st
      · rw [if_pos hv]
        exact ⟨fun h => (h st rfl hv).elim, fun _ => ⟨trivial, hh⟩⟩
      · rw [if_neg hv]
        exact ⟨fun _ => doomed_failed, fun h => (h (fun st' hst => by cases hst; exact hv)).elim⟩
  | look =>
    simp only [Session.move, Move.call.injEq] at hm
    obtain ⟨rfl, hk⟩ := hm
    cases eq_of_heq hk
    have hh : ¬ HasBound (hp ++ [⟨.metadata S.path, r⟩]) ∧ ¬ HasRead (hp ++ [⟨.metadata S.path, r⟩]) := by
      simpa [Inv, hasRead_snoc, hasBound_snoc] using hi
    rcases r with _ | _ | _
    · exact ⟨fun h => (nomatch h.1), fun _ => ⟨trivial, hh⟩⟩
    · exact ⟨fun _ => doomed_failed, fun h => (h ⟨rfl, hi.1⟩).elim⟩
    · exact ⟨fun h => (nomatch h.1), fun _ => ⟨trivial, hh⟩⟩
  | stale =>
    simp only [Session.move, Move.call.injEq] at hm
    obtain ⟨rfl, hk⟩ := hm
    cases eq_of_heq hk
    have hh : ¬ HasBound (hp ++ [⟨.removeFile S.path, r⟩]) ∧ ¬ HasRead (hp ++ [⟨.removeFile S.path, r⟩]) := by
      simpa [Inv, hasRead_snoc, hasBound_snoc] using hi
    cases r
    · exact ⟨fun _ => doomed_failed, fun h => (h ⟨rfl, hi.1⟩).elim⟩
    · exact ⟨fun h => (nomatch h.1), fun _ => ⟨trivial, hh⟩⟩
  | mask =>
    simp only [Session.move, Move.call.injEq] at hm
    obtain ⟨rfl, hk⟩ := hm
    cases eq_of_heq hk
    refine ⟨fun h => h.elim, fun _ => ⟨trivial, ?_⟩⟩
    have : Inv hp .mask := hi
    simpa [Inv, hasRead_snoc, hasBound_snoc] using this
  | bind old =>
    simp only [Session.move, Move.call.injEq] at hm
    obtain ⟨rfl, hk⟩ := hm
    cases eq_of_heq hk
    have hh : HasBound (hp ++ [⟨.bind S.path, r⟩]) ∧ ¬ HasRead (hp ++ [⟨.bind S.path, r⟩]) := by
      have := hi.2
      simpa [hasRead_snoc, hasBound_snoc] using this
    cases r with
    | bound fd =>
      dsimp only
      rw [if_neg he.path]
      constructor
      · intro h; exact h fd rfl
      · intro h
        refine ⟨?_, hh⟩
        exact Nat.lt_of_not_le fun hle => h (fun fd' hfd => by cases hfd; exact hle)
    | failed => exact ⟨fun _ => rfl, fun h => (h (fun fd hfd => nomatch hfd)).elim⟩
    | failLeft => exact ⟨fun _ => rfl, fun h => (h (fun fd hfd => nomatch hfd)).elim⟩
  | own old fd =>
    simp only [Session.move, Move.call.injEq] at hm
    obtain ⟨rfl, hk⟩ := hm
    cases eq_of_heq hk
    have hh : HasBound (hp ++ [⟨.chown S.path S.uid S.gid, r⟩]) ∧ ¬ HasRead (hp ++ [⟨.chown S.path S.uid S.gid, r⟩]) := by
      simpa [Inv, hasRead_snoc, hasBound_snoc] using hi
    cases r
    · refine ⟨fun _ => ?_, fun h => (h rfl).elim⟩
      simp [Doomed]
    · refine ⟨fun h => (nomatch h), fun _ => ?_⟩
      simp only [hmode]
      exact ⟨hf, hh⟩
  | permit old fd mode =>
    simp only [Session.move, Move.call.injEq] at hm
    obtain ⟨rfl, hk⟩ := hm
    cases eq_of_heq hk
    have hh : HasBound (hp ++ [⟨.chmod S.path mode, r⟩]) ∧ ¬ HasRead (hp ++ [⟨.chmod S.path mode, r⟩]) := by
      simpa [Inv, hasRead_snoc, hasBound_snoc] using hi
    have hfd : fd < S.fds := hf
    cases r
    · refine ⟨fun _ => ?_, fun h => (h rfl).elim⟩
      simp [Doomed]
    · refine ⟨fun h => (nomatch h), fun _ => ?_⟩
      simp only [hfd, if_true]
      exact ⟨trivial, hh⟩
  | wait old fd =>
    simp only [Session.move, Move.call.injEq] at hm
    obtain ⟨rfl, hk⟩ := hm
    cases eq_of_heq hk
    have hh : HasBound (hp ++ [⟨.select fd, r⟩]) ∧ ¬ HasRead (hp ++ [⟨.select fd, r⟩]) := by
      simpa [Inv, hasRead_snoc, hasBound_snoc] using hi
    dsimp only
    by_cases h1 : r = (1, true)
    · rw [if_pos h1]
      exact ⟨fun h => (h h1).elim, fun _ => ⟨trivial, hh⟩⟩
    · rw [if_neg h1]
      refine ⟨fun _ => ?_, fun h => (h h1).elim⟩
      split <;> rfl
  | admit old fd =>
    simp only [Session.move, Move.call.injEq] at hm
    obtain ⟨rfl, hk⟩ := hm
    cases eq_of_heq hk
    have hh : HasBound (hp ++ [⟨.accept fd, r⟩]) ∧ ¬ HasRead (hp ++ [⟨.accept fd, r⟩]) := by
      simpa [Inv, hasRead_snoc, hasBound_snoc] using hi
    exact ⟨fun h => h, fun h => ⟨h, hh⟩⟩
  | tidy old c =>
    simp only [Session.move, Move.call.injEq] at hm
    obtain ⟨rfl, hk⟩ := hm
    cases eq_of_heq hk
    have hh : HasBound (hp ++ [⟨.metadata S.path, r⟩]) ∧ ¬ HasRead (hp ++ [⟨.metadata S.path, r⟩]) := by
      simpa [Inv, hasRead_snoc, hasBound_snoc] using hi
    refine ⟨fun h => (h.2 hi.1).elim, fun _ => ?_⟩
    dsimp only
    split <;> exact ⟨hf, hh⟩
  | remove old c =>
    simp only [Session.move, Move.call.injEq] at hm
    obtain ⟨rfl, hk⟩ := hm
    cases eq_of_heq hk
    have hh : HasBound (hp ++ [⟨.removeFile S.path, r⟩]) ∧ ¬ HasRead (hp ++ [⟨.removeFile S.path, r⟩]) := by
      simpa [Inv, hasRead_snoc, hasBound_snoc] using hi
    exact ⟨fun h => (h.2 hi.1).elim, fun _ => ⟨hf, hh⟩⟩
  | unmask old c =>
    simp only [Session.move, Move.call.injEq] at hm
    obtain ⟨rfl, hk⟩ := hm
    cases eq_of_heq hk
    have hh : HasBound (hp ++ [⟨.umask old, r⟩]) ∧ ¬ HasRead (hp ++ [⟨.umask old, r⟩]) := by
      simpa [Inv, hasRead_snoc, hasBound_snoc] using hi
    cases c with
    | none => exact absurd rfl hf
    | some c => exact ⟨fun h => h.elim, fun _ => ⟨trivial, hh⟩⟩
  | pairFile fd =>
    simp only [Session.move, Move.call.injEq] at hm
    obtain ⟨rfl, hk⟩ := hm
    cases eq_of_heq hk
    refine ⟨fun h => h.elim, fun _ => ?_⟩
    have hh := hi.2
    dsimp only
    split <;> exact ⟨trivial, by simpa [Inv, past, hasRead_snoc] using hh⟩
  | guard fd e =>
    simp only [Session.move, Move.call.injEq] at hm
    obtain ⟨rfl, hk⟩ := hm
    cases eq_of_heq hk
    have hi' : HasRead hp ↔ past e := hi
    have hfe : goodErrand e := hf
    cases r with
    | none =>
      have hh : HasRead (hp ++ [⟨.sigGet, none⟩]) ↔ past e := by simpa [hasRead_snoc] using hi'
      have hmis : Mishap S.root S.fds hp ⟨.sigGet, none⟩ ↔ ¬ past e := by simp [Mishap, hi']
      rw [hmis]
      exact hstop fd e _ hfe hh
    | some old =>
      refine ⟨fun h => (nomatch h.1), fun _ => ⟨hf, ?_⟩⟩
      simpa [Inv, hasRead_snoc, ends_snoc] using hi'
  | arm fd e old =>
    simp only [Session.move, Move.call.injEq] at hm
    obtain ⟨rfl, hk⟩ := hm
    cases eq_of_heq hk
    have hi' : (HasRead hp ↔ past e) ∧ (HasRead hp.dropLast ↔ past e) ∧ ¬ EndsInOvercount hp := hi
    have hfe : goodErrand e := hf
    cases r with
    | false =>
      generalize hev : (⟨Sys.sigSet _, false⟩ : Ev) = ev
      have hh : HasRead (hp ++ [ev]) ↔ past e := by subst hev; simpa [hasRead_snoc] using hi'.1
      have hmis : Mishap S.root S.fds hp ev ↔ ¬ past e := by subst hev; simp [Mishap, hi']
      rw [hmis]
      exact hstop fd e _ hfe hh
    | true =>
      refine ⟨fun h => ?_, fun _ => ?_⟩
      · simp [Mishap, hi'] at h
      · cases e <;> first
          | exact ⟨⟨hfe, fun h => (nomatch h)⟩, by simpa [Inv, hasRead_snoc] using hi'.1⟩
          | exact ⟨⟨trivial, trivial⟩, by simpa [Inv, past, excess, hasRead_snoc, ends_snoc] using hi'.1⟩
          | exact hfe.elim
  | act fd e old =>
    obtain ⟨hfe, hfl⟩ := (hf : goodErrand e ∧ e ≠ .flush)
    have hi' : HasRead hp ↔ past e := hi
    cases e with
    | flush => exact absurd rfl hfl
    | mirror rest => exact hfe.elim
    | answer =>
      simp only [Session.move, Move.call.injEq] at hm
      obtain ⟨rfl, hk⟩ := hm
      cases eq_of_heq hk
      have hmis : Mishap S.root S.fds hp ⟨.sockRead fd 1, r⟩ ↔ ¬ goodCame .answer (.byte (Session.answerIn r)) := by
        rcases r with ⟨_ | ⟨b, l⟩, hl⟩ | _ | _ <;> simp [Mishap, Session.answerIn, goodCame, yes]
        cases l
        · exact .inl rfl
        · simp at hl
      rw [hmis, Classical.not_not]
      refine ⟨fun h => h, fun h => ⟨⟨trivial, h⟩, ?_⟩⟩
      simp only [past, iff_false] at hi'
      simp [Inv, hasRead_snoc, ends_snoc, hi', past, excess]
    | prompt rest =>
      simp only [Session.move, Move.call.injEq] at hm
      obtain ⟨rfl, hk⟩ := hm
      cases eq_of_heq hk
      simp only [past, iff_false] at hi'
      have hmis : Mishap S.root S.fds hp ⟨.sockWrite fd rest, r⟩ ↔ ¬ goodCame (.prompt rest) (.wrote r) := by
        rcases r with n | _ | _ <;> simp [Mishap, goodCame, goodWrite, hi', Overcounts]
        omega
      rw [hmis, Classical.not_not]
      refine ⟨fun h => h, fun h => ⟨⟨trivial, h⟩, ?_⟩⟩
      have hno : ¬ Overcounts rest r := by
        rintro ⟨n, rfl, hn⟩
        exact absurd h.2 (by omega)
      simp [Inv, hasRead_snoc, ends_snoc, hi', past, excess]
      exact hno
    | echo b rest =>
      simp only [Session.move, Move.call.injEq] at hm
      obtain ⟨rfl, hk⟩ := hm
      cases eq_of_heq hk
      simp only [past, iff_true] at hi'
      refine ⟨fun h => (h.2 hi').elim, fun h => ⟨⟨hfe, trivial⟩, ?_⟩⟩
      simp [Inv, hasRead_snoc, ends_snoc, hi', past, excess]
    | newline b rest =>
      simp only [Session.move, Move.call.injEq] at hm
      obtain ⟨rfl, hk⟩ := hm
      cases eq_of_heq hk
      simp only [past, iff_true] at hi'
      refine ⟨fun h => (h.2 hi').elim, fun h => ⟨⟨hfe, trivial⟩, ?_⟩⟩
      simp [Inv, hasRead_snoc, ends_snoc, hi', past, excess]
  | disarm fd e old c =>
    simp only [Session.move, Move.call.injEq] at hm
    obtain ⟨rfl, hk⟩ := hm
    cases eq_of_heq hk
    obtain ⟨hfe, hfc⟩ := (hf : goodErrand e ∧ goodCame e c)
    obtain ⟨hi1, hi2, hi3⟩ := (hi : (HasRead hp ↔ e = .answer ∨ past e) ∧ (HasRead hp.dropLast ↔ past e) ∧
      (EndsInOvercount hp ↔ excess e c))
    have hh : HasRead (hp ++ [⟨.sigSet old, r⟩]) ↔ e = .answer ∨ past e := by simpa [hasRead_snoc] using hi1
    cases r with
    | false =>
      have hmis : Mishap S.root S.fds hp ⟨.sigSet old, false⟩ ↔ ¬ past e := by simp [Mishap, hi2]
      rw [hmis]
      simp only [Bool.false_eq_true, if_false]
      refine ⟨(hstop' fd e hfe).1, fun h => ?_⟩
      refine (hstop fd e _ hfe ?_).2 h
      rw [hh]
      exact ⟨fun _ => Classical.not_not.1 h, .inr⟩
    | true =>
      have hmis : Mishap S.root S.fds hp ⟨.sigSet old, true⟩ ↔ excess e c := by simp [Mishap, hi3]
      rw [hmis]
      simp only [if_true]
      cases e with
      | mirror rest => exact hfe.elim
      | flush =>
        cases c <;> first | exact hfc.elim | skip
        exact ⟨fun h => h.elim, fun _ => ⟨trivial, by simpa [Inv, Session.after, past] using hh⟩⟩
      | answer =>
        rcases c with _ | (_ | b) | _ | _ <;> first | exact hfc.elim | skip
        exact ⟨fun h => h.elim, fun _ => ⟨hfc, by simpa [Inv, Session.after, past] using hh⟩⟩
      | prompt rest =>
        rcases c with r | _ | _ | _ <;> first | exact hfc.elim | skip
        refine ⟨fun h => h.elim, fun _ => ?_⟩
        have hg : ∀ e, goodErrand e → ¬ past e → Fine S (.guard fd e) ∧ Inv (hp ++ [⟨.sigSet old, true⟩]) (.guard fd e) := by
          intro e h1 h2
          refine ⟨h1, ?_⟩
          show HasRead _ ↔ past e
          have hh' := hh
          simp only [past] at hh'
          simpa [h2] using hh'
        cases r with
        | intr => exact hg _ trivial (fun h => h)
        | fail => exact hfc.elim
        | wrote n =>
          obtain ⟨hn0, hnle⟩ := (hfc : 0 < n ∧ n ≤ rest.length)
          simp only [Session.after, deliver]
          rw [if_neg (by omega)]
          split
          · exact hg _ trivial (fun h => h)
          · rw [if_pos (by omega)]
            exact hg _ trivial (fun h => h)
      | echo b rest =>
        rcases c with r | _ | _ | _ <;> first | exact hfc.elim | skip
        have hg : ∀ e, goodErrand e → past e → Fine S (.guard fd e) ∧ Inv (hp ++ [⟨.sigSet old, true⟩]) (.guard fd e) := by
          intro e h1 h2
          refine ⟨h1, ?_⟩
          show HasRead _ ↔ past e
          have hh' := hh
          simp only [past] at hh'
          simpa [h2] using hh'
        have hexc := hexcess (again := fun rest => .guard fd (.echo b rest)) (done := .guard fd (.newline b (b! "\n")))
            (rest := rest) (r := r) (h := hp ++ [⟨.sigSet old, true⟩]) (fd := fd)
        exact hexc (fun _ => hg _ hfe trivial) (hg _ hfe trivial)
      | newline b rest =>
        rcases c with r | _ | _ | _ <;> first | exact hfc.elim | skip
        have hg : ∀ e, goodErrand e → past e → Fine S (.guard fd e) ∧ Inv (hp ++ [⟨.sigSet old, true⟩]) (.guard fd e) := by
          intro e h1 h2
          refine ⟨h1, ?_⟩
          show HasRead _ ↔ past e
          have hh' := hh
          simp only [past] at hh'
          simpa [h2] using hh'
        have hexc := hexcess (again := fun rest => .guard fd (.newline b rest)) (done := S.decide fd b)
            (rest := rest) (r := r) (h := hp ++ [⟨.sigSet old, true⟩]) (fd := fd)
        exact hexc (fun _ => hg _ hfe trivial) (hdec _ _ _ hfe)
  | spare fd =>
    simp only [Session.move, Move.call.injEq] at hm
    obtain ⟨rfl, hk⟩ := hm
    cases eq_of_heq hk
    exact ⟨fun h => h.elim, fun _ => ⟨fun h => (nomatch h), trivial⟩⟩
  | over v => simp [Session.move] at hm
  | _ => exact hf.elim

theorem fine_done {y : Step} {v : Verdict} (hf : Fine S y) (hm : S.move y = .done v) : v ≠ .refused := by
  cases y <;> simp [Session.move] at hm
  · subst hm; exact hf
  · rename_i e _
    cases e <;> simp at hm
    exact absurd rfl hf.2

/-- The session is refused exactly if there is a mishap. -/
theorem refused_iff (he : Eligible S) : ∀ (s : Sched) {hp : Hist} {y : Step} {v : Verdict}, Fine S y → Inv hp y →
    (runMachine S.move y s).1 = .ok v →
    (v = .refused ↔ ∃ h1 e h2, (runMachine S.move y s).2.1 = h1 ++ e :: h2 ∧ Mishap S.root S.fds (hp ++ h1) e) := by
  intro s
  induction s with
  | nil =>
    intro hp y v hf hi h
    unfold runMachine at h ⊢
    split at h
    · rename_i v' hm
      cases h
      exact ⟨fun hv => (fine_done hf hm hv).elim, by rintro ⟨h1, e, h2, hh, -⟩; simp at hh⟩
    · cases h
  | cons a s ih =>
    intro hp y v hf hi h
    unfold runMachine at h ⊢
    split at h
    · rename_i v' hm
      cases h
      exact ⟨fun hv => (fine_done hf hm hv).elim, by rintro ⟨h1, e, h2, hh, -⟩; simp at hh⟩
    · rename_i c k hm
      dsimp only
      by_cases hmis : Mishap S.root S.fds hp ⟨c, a c⟩
      · have hd := doomed_run s ((step he hf hi hm (a c)).1 hmis) h
        exact ⟨fun _ => ⟨[], _, _, rfl, by simpa using hmis⟩, fun _ => hd⟩
      · obtain ⟨hf', hi'⟩ := (step he hf hi hm (a c)).2 hmis
        rw [ih hf' hi' h]
        constructor
        · rintro ⟨h1, e, h2, hh, hx⟩
          exact ⟨⟨c, a c⟩ :: h1, e, h2, by rw [hh]; rfl, by simpa using hx⟩
        · rintro ⟨h1, e, h2, hh, hx⟩
          cases h1 with
          | nil =>
            simp only [List.nil_append, List.cons.injEq] at hh
            obtain ⟨rfl, -⟩ := hh
            exact (hmis (by simpa using hx)).elim
          | cons e' h1 =>
            simp only [List.cons_append, List.cons.injEq] at hh
            obtain ⟨rfl, hh⟩ := hh
            exact ⟨h1, e, h2, hh, by simpa using hx⟩

/-! ### Sessions that no answer can save -/

/-- The socket has no mode, no place, or no number that `select` could handle. -/
def Hopeless (S : Session) : Prop := S.mode = none ∨ (0 : UInt8) ∈ S.path ∨ S.fds = 0

def Lost (S : Session) : Step → Prop
  | .userFile | .ttyOpen _ _ | .tty _ _ | .tell _ => True
  | .vet _ | .look | .stale | .mask | .bind _ => S.mode ≠ none
  | y => Doomed S y

theorem lost_of_doomed {y : Step} (h : Doomed S y) : Lost S y := by
  cases y <;> first | exact h | exact h.elim

theorem lost_connect : Lost S S.connect := by
  unfold Session.connect
  split
  · rfl
  · exact lost_of_doomed (doomed_says _)
  · rename_i h _
    split
    · exact lost_of_doomed (doomed_says _)
    · show S.mode ≠ none
      rw [h]; simp

theorem lost_tell (t : Bytes) : Lost S (S.tell t) := by
  unfold Session.tell
  split
  · exact lost_connect
  · split
    · trivial
    · exact lost_connect

theorem lost_move (hh : Hopeless S) {y : Step} {c : Sys} {k : Resp c → Step} (hl : Lost S y) (hm : S.move y = .call c k)
    (r : Resp c) : Lost S (k r) := by
  have hdel : ∀ {again done failed absurd rest r}, (∀ t, Lost S (again t)) → Lost S done → Lost S failed →
      Lost S absurd → Lost S (deliver again done failed absurd rest r) := by
    intro again done failed absurd rest r h1 h2 h3 h4
    cases r <;> simp only [deliver]
    · split
      · exact h3
      · split
        · exact h1 _
        · split
          · exact h2
          · exact h4
    · exact h1 _
    · exact h3
  have hfail : Lost S S.failed := lost_of_doomed doomed_failed
  cases y with
  | userFile =>
    simp only [Session.move, Move.call.injEq] at hm
    obtain ⟨rfl, hk⟩ := hm
    cases eq_of_heq hk
    dsimp only
    split
    · exact lost_tell _
    · trivial
  | ttyOpen tty text =>
    simp only [Session.move, Move.call.injEq] at hm
    obtain ⟨rfl, hk⟩ := hm
    cases eq_of_heq hk
    dsimp only
    split
    · split
      · exact lost_connect
      · trivial
    · exact lost_tell _
  | tty text rest =>
    simp only [Session.move, Move.call.injEq] at hm
    obtain ⟨rfl, hk⟩ := hm
    cases eq_of_heq hk
    exact hdel (fun _ => trivial) lost_connect (lost_tell _) rfl
  | tell rest =>
    simp only [Session.move, Move.call.injEq] at hm
    obtain ⟨rfl, hk⟩ := hm
    cases eq_of_heq hk
    exact hdel (fun _ => trivial) lost_connect lost_connect rfl
  | vet d =>
    simp only [Session.move, Move.call.injEq] at hm
    obtain ⟨rfl, hk⟩ := hm
    cases eq_of_heq hk
    cases r with
    | none => exact hfail
    | some st =>
      dsimp only
      split
      · exact hl
      · exact hfail
  | look =>
    simp only [Session.move, Move.call.injEq] at hm
    obtain ⟨rfl, hk⟩ := hm
    cases eq_of_heq hk
    rcases r with _ | _ | _
    · exact hl
    · exact hfail
    · exact hl
  | stale =>
    simp only [Session.move, Move.call.injEq] at hm
    obtain ⟨rfl, hk⟩ := hm
    cases eq_of_heq hk
    cases r
    · exact hfail
    · exact hl
  | mask =>
    simp only [Session.move, Move.call.injEq] at hm
    obtain ⟨rfl, hk⟩ := hm
    cases eq_of_heq hk
    exact hl
  | bind old =>
    simp only [Session.move, Move.call.injEq] at hm
    obtain ⟨rfl, hk⟩ := hm
    cases eq_of_heq hk
    cases r with
    | bound fd =>
      dsimp only
      split
      · rfl
      · rename_i h0
        show S.fds ≤ fd
        rcases hh with h | h | h
        · exact absurd h hl
        · exact absurd h h0
        · rw [h]; exact Nat.zero_le _
    | failed => rfl
    | failLeft => rfl
  | _ =>
    refine lost_of_doomed (doomed_move ?_ hm r)
    exact hl

theorem lost_run (hh : Hopeless S) : ∀ (s : Sched) {x : Step} {v : Verdict}, Lost S x →
    (runMachine S.move x s).1 = .ok v → v = .refused := by
  have hdone : ∀ {x : Step} {v : Verdict}, Lost S x → S.move x = .done v → v = .refused := by
    intro x v hl hm
    cases x <;> simp [Session.move] at hm
    · subst hm; exact hl
    · rename_i e _
      cases e <;> simp at hm
      exact hm.symm
  intro s
  induction s with
  | nil =>
    intro x v hl h
    unfold runMachine at h
    split at h
    · rename_i v' hm
      cases h
      exact hdone hl hm
    · cases h
  | cons a s ih =>
    intro x v hl h
    unfold runMachine at h
    split at h
    · rename_i v' hm
      cases h
      exact hdone hl hm
    · rename_i c k hm
      exact ih (lost_move hh hl hm _) h

/-! ### Sessions that a kind system lets through -/

/-- Everything works, and the pair says yes. -/
def kind (root : Nat) : Answer
  | .readFile _    => none
  | .ttyOpen _     => true
  | .ttyWrite b    => .wrote b.length
  | .printf _ b    => .wrote b.length
  | .stat _        => some ⟨0o040755, root⟩
  | .metadata _    => none
  | .removeFile _  => true
  | .umask _       => (0o22 : Nat)
  | .bind _        => .bound 0
  | .chown _ _ _   => true
  | .chmod _ _     => true
  | .select _      => ((1, true) : Int × Bool)
  | .accept _      => some ⟨8, ⟨0, [0]⟩⟩
  | .sockWrite _ b => .wrote b.length
  | .sockRead _ n  => .data ([121].take n) (by simp; omega)
  | .shutdown _    => true
  | .sigGet        => some ⟨1, 0x10000000#32, 0⟩
  | .sigSet _      => true

def Can (S : Session) (y : Step) : Prop := ∃ s fd, (runMachine S.move y s).1 = .ok (.granted fd)

theorem can_over {fd : Option Nat} : Can S (.over (.granted fd)) := ⟨[], fd, rfl⟩

theorem can_call {y : Step} {c : Sys} {k : Resp c → Step} (hm : S.move y = .call c k) (h : Can S (k (kind S.root c))) :
    Can S y := by
  obtain ⟨s, fd, h⟩ := h
  refine ⟨kind S.root :: s, fd, ?_⟩
  unfold runMachine
  rw [hm]
  exact h

theorem deliver_all {again : Bytes → Step} {done failed absurd : Step} {rest : Bytes} (hne : rest ≠ []) :
    deliver again done failed absurd rest (.wrote rest.length) = done := by
  have : rest.length ≠ 0 := by simpa using hne
  simp [deliver, this]

theorem can_decide (fd : Nat) : Can S (S.decide fd 121) := by
  unfold Session.decide
  rw [if_pos (.inl rfl)]
  split
  · exact can_call rfl can_over
  · exact can_over

theorem can_newline (fd : Nat) : Can S (.guard fd (.newline 121 (b! "\n"))) := by
  refine can_call rfl (can_call rfl (can_call rfl (can_call rfl ?_)))
  exact can_decide fd

theorem can_echo (fd : Nat) : Can S (.guard fd (.echo 121 [121])) :=
  can_call rfl (can_call rfl (can_call rfl (can_call rfl (can_newline fd))))

theorem can_answer (fd : Nat) : Can S (.guard fd .answer) :=
  can_call rfl (can_call rfl (can_call rfl (can_call rfl (can_echo fd))))

theorem can_flush (fd : Nat) : Can S (.guard fd .flush) :=
  can_call rfl (can_call rfl (can_call rfl (can_answer fd)))

theorem can_prompt (fd : Nat) {text : Bytes} (h : text ≠ []) : Can S (.guard fd (.prompt text)) := by
  refine can_call rfl (can_call rfl (can_call rfl (can_call rfl ?_)))
  show Can S (S.after fd (.prompt text) (.wrote (.wrote text.length)))
  have : S.after fd (.prompt text) (.wrote (.wrote text.length)) = .guard fd .flush := by
    simp only [Session.after]; exact deliver_all h
  rw [this]
  exact can_flush fd

theorem can_pairFile (fd : Nat) : Can S (.pairFile fd) := by
  refine can_call rfl ?_
  show Can S (if S.pairText none = [] then _ else _)
  split
  · exact can_flush fd
  · rename_i h; exact can_prompt fd h

theorem can_mask (he : Eligible S) (hfds : 0 < S.fds) : Can S .mask := by
  obtain ⟨m, hm⟩ := he.mode
  refine can_call rfl (can_call rfl ?_)
  show Can S (if (0 : UInt8) ∈ S.path then _ else Step.own _ 0)
  rw [if_neg he.path]
  refine can_call rfl ?_
  simp only [hm, kind]
  refine can_call rfl ?_
  simp only [hfds, kind, if_true]
  refine can_call rfl (can_call rfl (can_call rfl (can_call rfl (can_pairFile 8))))

theorem can_connect (he : Eligible S) (hfds : 0 < S.fds) : Can S S.connect := by
  obtain ⟨d, hd⟩ := connect_eligible he
  rw [hd]
  refine can_call rfl ?_
  have hv : S.vetted ⟨0o040755, S.root⟩ := ⟨(by decide : (0o040755 &&& 0o040000 : Nat) ≠ 0), rfl, (by decide : (0o040755 &&& 0o022 : Nat) = 0)⟩
  simp only [kind]
  rw [if_pos hv]
  exact can_call rfl (can_mask he hfds)

theorem can_tell (he : Eligible S) (hfds : 0 < S.fds) (text : Bytes) : Can S (S.tell text) := by
  unfold Session.tell
  split
  · exact can_connect he hfds
  · rename_i hne
    split
    · refine can_call rfl ?_
      show Can S (deliver _ _ _ _ text (.wrote text.length))
      rw [deliver_all hne]
      exact can_connect he hfds
    · exact can_connect he hfds

theorem can_userFile (he : Eligible S) (hfds : 0 < S.fds) : Can S .userFile := by
  refine can_call rfl ?_
  cases htty : S.tty with
  | none => exact can_tell he hfds _
  | some tty =>
    refine can_call rfl ?_
    show Can S (if S.userText none = [] then S.connect else _)
    split
    · exact can_connect he hfds
    · rename_i hne
      refine can_call rfl ?_
      show Can S (deliver _ _ _ _ (S.userText none) (.wrote (S.userText none).length))
      rw [deliver_all hne]
      exact can_connect he hfds

/-! ### The session of an environment -/

theorem name_no_nul (uid : Nat) (pid : Int) : (0 : UInt8) ∉ socketName uid pid := by
  have hd : ∀ n, (0 : UInt8) ∉ decNat n := by
    intro n h
    have := decNat_digit h
    unfold IsDigit at this; revert this; decide
  have hi : (0 : UInt8) ∉ decInt pid := by
    cases pid <;> simp [decInt, hd]
  simp only [socketName_eq, List.mem_append, not_or]
  exact ⟨⟨⟨hd _, by decide⟩, hi⟩, by decide⟩

theorem path_nul (env : IoEnv) : (0 : UInt8) ∈ sessionPath env ↔ (0 : UInt8) ∈ (optionsOf env).socketDir := by
  unfold sessionPath socketFile
  simp only [List.mem_append, name_no_nul, or_false]
  constructor
  · rintro (h | h)
    · exact h
    · split at h
      · simp at h
      · exact absurd h (by decide)
  · exact .inl

/-- The socket has exactly one intended peer: the target user, or the members of the target group. -/
def OnePeer (env : IoEnv) : Prop := env.userInfo.uid ≠ env.commandInfo.runasEuid ↔ env.settings.runasGroup = none

theorem eligible_sessionFor {rt : Rt} {env : IoEnv} {b1 b2 : Bool} (h1 : OnePeer env)
    (h0 : (0 : UInt8) ∉ (optionsOf env).socketDir) : Eligible (sessionFor rt env b1 b2) := by
  have hp : (0 : UInt8) ∉ sessionPath env := fun h => h0 ((path_nul env).1 h)
  refine ⟨?_, ?_, hp⟩
  · show ∃ m, (if env.userInfo.uid ≠ env.commandInfo.runasEuid then some 0o200
      else if env.settings.runasGroup ≠ none then some 0o020 else none) = some m
    by_cases hu : env.userInfo.uid ≠ env.commandInfo.runasEuid
    · rw [if_pos hu]; exact ⟨_, rfl⟩
    · rw [if_neg hu, if_pos (fun h => hu (h1.2 h))]; exact ⟨_, rfl⟩
  · obtain ⟨q, hq, -⟩ := C16_parent (Pair.ofEnv env)
    exact ⟨q, hq, fun h => hp (sessionPath_eq env ▸ (Path.parent_some hq).1.subset h)⟩

theorem hopeless_sessionFor {rt : Rt} {env : IoEnv} {b1 b2 : Bool}
    (hb : ¬ (env.userInfo.uid ≠ env.commandInfo.runasEuid ∧ env.settings.runasGroup ≠ none))
    (h : ¬ OnePeer env ∨ (0 : UInt8) ∈ (optionsOf env).socketDir ∨ rt.fdSetSize = 0) : Hopeless (sessionFor rt env b1 b2) := by
  rcases h with h | h | h
  · refine .inl ?_
    show (if env.userInfo.uid ≠ env.commandInfo.runasEuid then some 0o200
      else if env.settings.runasGroup ≠ none then some 0o020 else none) = none
    by_cases hu : env.userInfo.uid ≠ env.commandInfo.runasEuid
    · exact absurd ⟨fun _ => Classical.byContradiction fun hg => hb ⟨hu, hg⟩, fun _ => hu⟩ h
    · by_cases hg : env.settings.runasGroup = none
      · rw [if_neg hu, if_neg (fun h => h hg)]
      · exact absurd ⟨fun h => absurd h hu, fun h => absurd h hg⟩ h
  · exact .inr (.inl ((path_nul env).2 h))
  · exact .inr (.inr h)

end Refusal

open Refusal

/-- The arguments of `open` are accepted and make the environment `env` (unless there is one already). -/
def MakesEnv (rt : Rt) (a : OpenArgs) (st : State) (env : IoEnv) : Prop :=
  ∃ env0, IoEnv.new rt a = some (.ok env0) ∧ env = st.env.getD env0

theorem withResult_ok {α β : Type} {f : α → β} {x : Out α × Hist × Sched} {b : β} {h : Hist} {s : Sched}
    (hx : withResult f x = (.ok b, h, s)) : ∃ a, x.1 = .ok a ∧ f a = b ∧ x.2.1 = h := by
  obtain ⟨o, h', s'⟩ := x
  cases o with
  | ok a => simp only [withResult, Prod.mk.injEq, Out.ok.injEq] at hx; exact ⟨a, rfl, hx.1, hx.2.1⟩
  | panic => simp [withResult] at hx
  | killed => simp [withResult] at hx

/-- C68: exactly when a session is refused: the arguments are not acceptable; or a command is to be run and
either a debug build finds its rules broken, or the session is not exempt and - it has not exactly one intended
peer, or the name of the socket is impossible, or one of the listed mishaps befalls the handshake.  In all other
cases the session is allowed. -/
theorem C68_refused_iff {rt : Rt} {a : OpenArgs} {st st' : State} {s s' : Sched} {r : Int} {h : Hist}
    (hr : Core.open rt a st s = (.ok (r, st'), h, s')) :
    (r = -1 ∨ r = 1) ∧
    (r = -1 ↔ (∀ env, ¬ MakesEnv rt a st env) ∨
      ∃ env, MakesEnv rt a st env ∧ env.commandInfo.command ≠ [] ∧
        ((rt.debug = true ∧ Trips env (optionsOf env)) ∨
          (¬ SessionExempt env ∧
            (¬ OnePeer env ∨ (0 : UInt8) ∈ (optionsOf env).socketDir ∨
              ∃ h1 e h2, h = h1 ++ e :: h2 ∧ Mishap rt.euid rt.fdSetSize h1 e)))) := by
  have hstep : ∀ {S x fin}, Protocol rt S (.open a) st x fin →
      ∃ v, (runMachine S.move x s).1 = .ok v ∧ fin v = (r, st') ∧ (runMachine S.move x s).2.1 = h := by
    intro S x fin hp
    have := C63_exact hp s
    change Core.open rt a st s = _ at this
    rw [hr] at this
    exact withResult_ok this.symm
  cases hn : IoEnv.new rt a with
  | none =>
    obtain ⟨v, -, hv, -⟩ := hstep (S := bareSession true) (.openCrash ((C64_crash rt a).1 hn))
    obtain ⟨rfl, -⟩ := Prod.mk.inj hv
    exact ⟨.inl rfl, fun _ => .inl fun env ⟨_, h, _⟩ => (by rw [hn] at h; cases h), fun _ => rfl⟩
  | some res =>
  cases res with
  | error e =>
    obtain ⟨v, -, hv, -⟩ := hstep (S := bareSession true) (.openBad ((C64_complaint rt a _).1 ⟨e, hn, rfl⟩))
    obtain ⟨rfl, -⟩ := Prod.mk.inj hv
    exact ⟨.inl rfl, fun _ => .inl fun env ⟨_, h, _⟩ => (by rw [hn] at h; cases h), fun _ => rfl⟩
  | ok env0 =>
  obtain ⟨env, he⟩ : ∃ env, env = st.env.getD env0 := ⟨_, rfl⟩
  have hacc : ∀ env', MakesEnv rt a st env' ↔ env' = env := by
    intro env'
    constructor
    · rintro ⟨e, h1, h2⟩
      rw [hn] at h1
      cases h1
      rw [h2, he]
    · rintro rfl
      exact ⟨env0, hn, he⟩
  have hno : ¬ ∀ env, ¬ MakesEnv rt a st env := fun h => h env ((hacc env).2 rfl)
  rw [or_iff_right hno]
  simp only [hacc, exists_eq_left]
  by_cases hc : env.commandInfo.command = []
  · obtain ⟨v, -, hv, -⟩ := hstep (S := bareSession true) (.openBare hn he hc)
    obtain ⟨rfl, -⟩ := Prod.mk.inj hv
    simp [hc]
  by_cases ht : rt.debug = true ∧ Trips env (optionsOf env)
  · obtain ⟨v, -, hv, -⟩ := hstep (S := bareSession true) (.openTrips hn he hc ht.1 ht.2)
    obtain ⟨rfl, -⟩ := Prod.mk.inj hv
    simp [hc, ht]
  by_cases hx : SessionExempt env
  · obtain ⟨v, -, hv, -⟩ := hstep (S := bareSession true) (.openExempt hn he hc ht hx)
    obtain ⟨rfl, -⟩ := Prod.mk.inj hv
    refine ⟨.inr rfl, fun h => absurd h (by decide), fun ⟨_, h⟩ => ?_⟩
    rcases h with h | h
    · exact absurd h ht
    · exact absurd hx h.1
  by_cases hb : env.userInfo.uid ≠ env.commandInfo.runasEuid ∧ env.settings.runasGroup ≠ none
  · obtain ⟨v, -, hv, -⟩ := hstep (S := bareSession true) (.openBoth hn he hc ht hx hb.1 hb.2)
    obtain ⟨rfl, -⟩ := Prod.mk.inj hv
    exact ⟨.inl rfl, fun _ => ⟨hc, .inr ⟨hx, .inl fun h => hb.2 (h.1 hb.1)⟩⟩, fun _ => rfl⟩
  obtain ⟨v, hv1, hv2, hv3⟩ := hstep (.openAsk hn he hc ht hx hb (sessionOf_sessionFor rt env a.hasPrintf st.plugin.isSome))
  have hrv : (r = -1 ∨ r = 1) ∧ (r = -1 ↔ v = .refused) := by
    cases v <;> obtain ⟨rfl, -⟩ := Prod.mk.inj hv2 <;> simp
  refine ⟨hrv.1, ?_⟩
  rw [hrv.2]
  by_cases hbad : ¬ OnePeer env ∨ (0 : UInt8) ∈ (optionsOf env).socketDir
  · refine ⟨fun _ => ⟨hc, .inr ⟨hx, ?_⟩⟩, fun _ => ?_⟩
    · rcases hbad with h | h
      · exact .inl h
      · exact .inr (.inl h)
    · refine lost_run (hopeless_sessionFor hb ?_) s (show Lost _ .userFile from trivial) hv1
      rcases hbad with h | h
      · exact .inl h
      · exact .inr (.inl h)
  · obtain ⟨h1, h0⟩ := not_or.1 hbad
    have h1 := Classical.not_not.1 h1
    have key := refused_iff (eligible_sessionFor (rt := rt) (b1 := a.hasPrintf) (b2 := st.plugin.isSome) h1 h0) s (hp := [])
      (y := .userFile) trivial ⟨by simp [HasBound], by simp [HasRead]⟩ hv1
    rw [hv3] at key
    rw [key]
    constructor
    · intro h; exact ⟨hc, .inr ⟨hx, .inr (.inr h)⟩⟩
    · rintro ⟨-, h | ⟨-, h | h | h⟩⟩
      · exact absurd h ht
      · exact absurd h1 h
      · exact absurd h h0
      · exact h

/-- C68: exactly which sessions can be allowed at all, if the system and the pair are willing.  A command with the
user's own uid but, by policy, another group (no `-g` was given) needs an exemption: without one nobody can ever
approve it. -/
theorem C68_possible (rt : Rt) (a : OpenArgs) (st : State) :
    (∃ s, retOf (Core.open rt a st s).1 = some 1) ↔
      ∃ env, MakesEnv rt a st env ∧
        (env.commandInfo.command = [] ∨
          (¬ (rt.debug = true ∧ Trips env (optionsOf env)) ∧
            (SessionExempt env ∨
              (OnePeer env ∧ (0 : UInt8) ∉ (optionsOf env).socketDir ∧ 0 < rt.fdSetSize)))) := by
  constructor
  · rintro ⟨s, h⟩
    rcases hr : Core.open rt a st s with ⟨o, hist, s'⟩
    rw [hr] at h
    cases o with
    | panic => simp [retOf] at h
    | killed => simp [retOf] at h
    | ok p =>
    obtain ⟨r, st'⟩ := p
    simp only [retOf, Option.some.injEq] at h
    subst h
    have key := (C68_refused_iff hr).2
    have key : ¬ _ := fun h => absurd (key.2 h) (by decide)
    obtain ⟨h1, h2⟩ := not_or.1 key
    obtain ⟨env, hacc⟩ := Classical.not_forall.1 h1
    have hacc := Classical.not_not.1 hacc
    refine ⟨env, hacc, ?_⟩
    refine Classical.byContradiction fun hno => ?_
    obtain ⟨hc, hno⟩ := not_or.1 hno
    have ht : ¬ (rt.debug = true ∧ Trips env (optionsOf env)) := fun ht => h2 ⟨env, hacc, hc, .inl ht⟩
    have hx : ¬ SessionExempt env := fun hx => hno ⟨ht, .inl hx⟩
    have hpeer : OnePeer env := Classical.byContradiction fun h => h2 ⟨env, hacc, hc, .inr ⟨hx, .inl h⟩⟩
    have h0 : (0 : UInt8) ∉ (optionsOf env).socketDir := fun h => h2 ⟨env, hacc, hc, .inr ⟨hx, .inr (.inl h)⟩⟩
    have hfds : rt.fdSetSize = 0 := Nat.eq_zero_of_not_pos fun h => hno ⟨ht, .inr ⟨hpeer, h0, h⟩⟩
    obtain ⟨env0, hn, he⟩ := hacc
    have hb : ¬ (env.userInfo.uid ≠ env.commandInfo.runasEuid ∧ env.settings.runasGroup ≠ none) :=
      fun h => h.2 (hpeer.1 h.1)
    have hex := C63_exact (.openAsk hn he hc ht hx hb (sessionOf_sessionFor rt env a.hasPrintf st.plugin.isSome)) s
    change Core.open rt a st s = _ at hex
    rw [hr] at hex
    obtain ⟨v, hv1, hv2, -⟩ := withResult_ok hex.symm
    have := lost_run (hopeless_sessionFor hb (.inr (.inr hfds))) s (show Lost _ .userFile from trivial) hv1
    subst this
    exact absurd (Prod.mk.inj hv2).1 (by decide)
  · rintro ⟨env, ⟨env0, hn, he⟩, hor⟩
    have hret : ∀ {S x fin s v}, Protocol rt S (.open a) st x fin → (runMachine S.move x s).1 = .ok v → (fin v).1 = 1 →
        ∃ s, retOf (Core.open rt a st s).1 = some 1 := by
      intro S x fin s v hp hv hf
      refine ⟨s, ?_⟩
      have := C63_exact hp s
      change Core.open rt a st s = _ at this
      rw [this]
      rcases hm : runMachine S.move x s with ⟨o, h, s'⟩
      rw [hm] at hv
      cases hv
      simp [withResult, retOf, hf]
    by_cases hc : env.commandInfo.command = []
    · exact hret (S := bareSession true) (s := []) (.openBare hn he hc) rfl rfl
    · rcases hor with h | ⟨ht, h⟩
      · exact absurd h hc
      by_cases hx : SessionExempt env
      · exact hret (S := bareSession true) (s := []) (.openExempt hn he hc ht hx) rfl rfl
      obtain ⟨hpeer, h0, hfds⟩ := h.resolve_left hx
      have hb : ¬ (env.userInfo.uid ≠ env.commandInfo.runasEuid ∧ env.settings.runasGroup ≠ none) :=
        fun h => h.2 (hpeer.1 h.1)
      obtain ⟨s, fd, hs⟩ := can_userFile (eligible_sessionFor (rt := rt) (b1 := a.hasPrintf) (b2 := st.plugin.isSome) hpeer h0) hfds
      exact hret (.openAsk hn he hc ht hx hb (sessionOf_sessionFor rt env a.hasPrintf st.plugin.isSome)) hs rfl

/-- Both sides of `C68_refused_iff` occur: the sample session is allowed if the pair says `y`, and refused if they say
`n` (which is the mishap), or if the directory is not root's. -/
example :
    retOf (Core.open sampleRt sampleArgs Core.init (List.replicate 60 (coop 121))).1 = some 1 ∧
    retOf (Core.open sampleRt sampleArgs Core.init (List.replicate 60 (coop 110))).1 = some (-1) ∧
    retOf (Core.open { sampleRt with euid := 1 } sampleArgs Core.init (List.replicate 60 (coop 121))).1 = some (-1) ∧
    Mishap 0 1024 [] ⟨.sockRead 8 1, .data [110] (by decide)⟩ ∧
    ¬ Mishap 0 1024 [] ⟨.sockRead 8 1, .data [121] (by decide)⟩ ∧
    Mishap 1 1024 [] ⟨.stat [], some ⟨0o040755, 0⟩⟩ := by
  refine ⟨by decide +kernel, by decide +kernel, by decide +kernel, ?_, ?_, ?_⟩
  · intro b l hl h
    cases h
    decide
  · intro h
    exact h 121 [] (by decide) rfl (.inl rfl)
  · intro st h
    cases h
    decide

/-- As `sampleArgs`, but the policy changes only the group, without `-g`. -/
def regroupedArgs : OpenArgs := { sampleArgs with
  commandInfo := some [b! "command=/bin/ls", b! "runas_uid=1000", b! "runas_gid=0",
    b! "runas_groups=0", b! "iolog_stdout=true"] }

/-- `C68_possible` at work: the sample session can be allowed; the one with only the group changed never can,
whatever the system and the pair do. -/
example : (∃ s, retOf (Core.open sampleRt sampleArgs Core.init s).1 = some 1) ∧
    ¬ ∃ s, retOf (Core.open sampleRt regroupedArgs Core.init s).1 = some 1 := by
  refine ⟨⟨List.replicate 60 (coop 121), by decide +kernel⟩, ?_⟩
  rw [C68_possible]
  rintro ⟨env, ⟨env0, hn, he⟩, h⟩
  have he : env = env0 := he
  subst he
  have h1 : ((IoEnv.new sampleRt regroupedArgs).bind Except.toOption).any (fun env =>
      env.commandInfo.command ≠ [] ∧ (Pair.ofEnv env).isExempt false = some false ∧
      env.userInfo.uid = env.commandInfo.runasEuid ∧ env.settings.runasGroup = none) = true := by decide +kernel
  rw [hn] at h1
  simp only [Except.toOption, Option.bind_some, Option.any_some, decide_eq_true_eq] at h1
  obtain ⟨hc, hx, hu, hg⟩ := h1
  rcases h with h | ⟨-, h | ⟨h, -⟩⟩
  · exact hc h
  · have := (C04_rule false (Pair.ofEnv env) false hx).2 h
    cases this
  · exact h.2 hg hu

end SudoPair
