import Verif.Lemmas.Prompt
import Verif.Spec.Approval
import Verif.Props.Variables
import Verif.Props.Exempt
/-
Facts about single phases of the handshake, used for the theorems about whole callbacks.
-/
namespace SudoPair
open Spec

/-- Interactions of `Socket::open`. -/
def SetupCall : Sys → Prop
  | .stat _ => True
  | .metadata _ => True
  | .removeFile _ => True
  | .umask _ => True
  | .bind _ => True
  | .chown _ _ _ => True
  | .chmod _ _ => True
  | .select _ => True
  | .accept _ => True
  | _ => False

theorem vet_setup {rt path o h} (hv : Vet rt path o h) : ∀ e ∈ h, SetupCall e.call := by
  cases hv <;> simp [SetupCall]

theorem unlink_setup {path o h} (hv : Unlink path o h) : ∀ e ∈ h, SetupCall e.call := by
  cases hv <;> simp [SetupCall]

theorem acc_setup {rt path uid gid mode fd o h} (hv : Acc rt path uid gid mode fd o h) :
    ∀ e ∈ h, SetupCall e.call := by
  cases hv <;> simp [SetupCall]

theorem bindAcc_setup {rt path uid gid mode o h} (hv : BindAcc rt path uid gid mode o h) :
    ∀ e ∈ h, SetupCall e.call := by
  cases hv with
  | bound ha => simpa [SetupCall] using acc_setup ha
  | _ => simp [SetupCall]

theorem sockOpen_setup {rt path uid gid mode o h} (hs : SockOpen rt path uid gid mode o h) :
    ∀ e ∈ h, SetupCall e.call := by
  cases hs with
  | vetErr hv => exact vet_setup hv
  | vetKilled hv => exact vet_setup hv
  | unlErr hv hu => exact List.forall_mem_append.2 ⟨vet_setup hv, unlink_setup hu⟩
  | unlKilled hv hu => exact List.forall_mem_append.2 ⟨vet_setup hv, unlink_setup hu⟩
  | umaskKilled hv hu => exact List.forall_mem_append.2 ⟨vet_setup hv, unlink_setup hu⟩
  | accKilled hv hu hb =>
    exact List.forall_mem_append.2 ⟨vet_setup hv, List.forall_mem_append.2 ⟨unlink_setup hu,
      List.forall_mem_cons.2 ⟨trivial, bindAcc_setup hb⟩⟩⟩
  | accPanic hv hu hb =>
    exact List.forall_mem_append.2 ⟨vet_setup hv, List.forall_mem_append.2 ⟨unlink_setup hu,
      List.forall_mem_cons.2 ⟨trivial, bindAcc_setup hb⟩⟩⟩
  | finKilled hv hu hb hu2 =>
    exact List.forall_mem_append.2 ⟨vet_setup hv, List.forall_mem_append.2 ⟨unlink_setup hu,
      List.forall_mem_cons.2 ⟨trivial, List.forall_mem_append.2 ⟨bindAcc_setup hb, unlink_setup hu2⟩⟩⟩⟩
  | done hv hu hb hu2 =>
    exact List.forall_mem_append.2 ⟨vet_setup hv, List.forall_mem_append.2 ⟨unlink_setup hu,
      List.forall_mem_cons.2 ⟨trivial, List.forall_mem_append.2 ⟨bindAcc_setup hb,
        List.forall_mem_append.2 ⟨unlink_setup hu2, by simp [SetupCall]⟩⟩⟩⟩⟩

theorem not_read_of_setup {e : Ev} (h : SetupCall e.call) (fd : Nat) : ¬ IsRead fd e := by
  rintro ⟨len, he⟩; rw [he] at h; exact h

theorem not_read_of_quiet {e : Ev} (h : QuietCall e.call) (fd : Nat) : ¬ IsRead fd e := by
  rintro ⟨len, he⟩; rw [he] at h; exact h

theorem not_read_of_write {fd' : Nat} {e : Ev} (h : WriteCall fd' e.call) (fd : Nat) : ¬ IsRead fd e := by
  rintro ⟨len, he⟩; rw [he] at h; exact h

theorem not_fails_of_quiet {e : Ev} (h : QuietCall e.call) : ¬ Fails e := by
  rcases e with ⟨c, r⟩
  cases c <;> first | exact False.elim h | exact id

theorem sent_setup {e : Ev} (h : SetupCall e.call) (fd : Nat) : sent fd e = [] := by
  rcases e with ⟨c, r⟩
  cases c <;> first | exact False.elim h | rfl

theorem sent_quiet {e : Ev} (h : QuietCall e.call) (fd : Nat) : sent fd e = [] := by
  rcases e with ⟨c, r⟩
  cases c <;> first | exact False.elim h | rfl

theorem delivered_of_sent {h : Hist} {fd : Nat} (hh : ∀ e ∈ h, sent fd e = []) :
    delivered fd h = [] := by
  simpa [delivered, List.flatMap_eq_nil_iff] using hh

theorem vet_ok {rt path h} (hv : Vet rt path (.ok true) h) : ∀ e ∈ h, ¬ Fails e := by
  cases hv; simp [Fails]

theorem unlink_ok {path o h} (hv : Unlink path o h) : ∀ e ∈ h, ¬ Fails e := by
  cases hv <;> simp [Fails]

/-- A connection comes from an `accept` on a listener bound at the given path, and nothing failed. -/
theorem sockOpen_connected {rt path uid gid mode conn h}
    (hs : SockOpen rt path uid gid mode (.ok (some conn)) h) :
    ∃ a lfd b, h = a ++ (⟨.accept lfd, some conn⟩ : Ev) :: b ∧
      (⟨.bind path, .bound lfd⟩ : Ev) ∈ a ∧ (∀ e ∈ a, SetupCall e.call ∧ ¬ Fails e) ∧
      (∀ e ∈ b, SetupCall e.call ∧ ¬ Fails e) := by
  have hset := sockOpen_setup hs
  cases hs with
  | done hv hu hb hu2 =>
    rename_i h1 h2 h3 h4 old old' bb
    cases hb with
    | bound ha =>
      rename_i lfd h5
      cases ha with
      | done =>
        refine ⟨h1 ++ (h2 ++ [⟨.umask 0o777, old⟩, ⟨.bind path, .bound lfd⟩, ⟨.chown path uid gid, true⟩,
          ⟨.chmod path mode, true⟩, ⟨.select lfd, (1, true)⟩]), lfd, h4 ++ [⟨.umask old, old'⟩],
          by simp, by simp, ?_, ?_⟩
        · refine List.forall_mem_append.2 ⟨fun e he => ⟨vet_setup hv e he, vet_ok hv e he⟩,
            List.forall_mem_append.2 ⟨fun e he => ⟨unlink_setup hu e he, unlink_ok hu e he⟩, ?_⟩⟩
          simp [SetupCall, Fails]
        · refine List.forall_mem_append.2 ⟨fun e he => ⟨unlink_setup hu2 e he, unlink_ok hu2 e he⟩, ?_⟩
          simp [SetupCall, Fails]

/-- Guards produce no reads and nothing sent. -/
theorem flush_facts {o h} (hf : GuardedFlush o h) (fd : Nat) :
    (∀ e ∈ h, ∀ fd', WriteCall fd' e.call) ∧ delivered fd h = [] ∧
    (o = .ok true → ∀ e ∈ h, ¬ Fails e) ∧ (o = .ok false → ∃ e ∈ h, Fails e) := by
  cases hf <;> simp [WriteCall, delivered, sent, Fails]

/-- The events of a guarded read that succeeded. -/
theorem guardedRead_ok {fd : Nat} {res : ReadRes 1} {h}
    (hg : Guarded (.sockRead fd 1) (.ok (some res)) h) :
    ∃ g1 g2 : List Ev, h = g1 ++ (⟨.sockRead fd 1, res⟩ : Ev) :: g2 ∧
      (∀ e ∈ g1, (∀ fd', WriteCall fd' e.call) ∧ ¬ Fails e ∧ ∀ fd', sent fd' e = []) ∧
      (∀ e ∈ g2, (∀ fd', WriteCall fd' e.call) ∧ ¬ Fails e ∧ ∀ fd', sent fd' e = []) := by
  cases hg with
  | done old =>
    exact ⟨[_, _], [_], rfl, by simp [WriteCall, Fails, sent], by simp [WriteCall, Fails, sent]⟩

theorem read1_of_response {fd : Nat} {res : ReadRes 1} {b : UInt8}
    (h : Pair.responseByte res = some b) (hne : b ≠ 110) :
    Read1 b fd ⟨.sockRead fd 1, res⟩ := by
  rcases res with ⟨bs, hl⟩ | _ | _
  · rcases bs with _ | ⟨c, bs⟩
    · simp only [Pair.responseByte, Option.some.injEq] at h; exact absurd h.symm hne
    · simp only [Pair.responseByte, Option.some.injEq] at h
      subst h
      have : bs = [] := by simpa using hl
      subst this
      exact ⟨rfl, rfl⟩
  · simp [Pair.responseByte] at h
  · simp [Pair.responseByte] at h

/-- If the prompt phase approves: the template was read, the whole prompt delivered without any
failure, then the reply was `y`/`Y`. -/
theorem promptRun_approved {p : Pair} {fd h} (hp : PromptRun p fd (.ok (.ok ())) h) :
    ∃ (r : Option Bytes) (h1 : Hist) (e : Ev) (h2 : Hist) (b : UInt8),
      h = (⟨.readFile p.options.pairPromptPath, r⟩ : Ev) :: (h1 ++ e :: h2) ∧
      (∀ x ∈ h1, WriteCall fd x.call ∧ ¬ Fails x) ∧ delivered fd h1 = p.promptText r ∧
      Read1 b fd e ∧ (b = 121 ∨ b = 89) ∧ (∀ x ∈ h2, WriteCall fd x.call) := by
  generalize ho : (Out.ok (Except.ok ()) : Out (Except ErrorKind Unit)) = o at hp
  cases hp with
  | answered hw hf hg hb hw1 hw2 =>
    rename_i r h1 h2 h3 res b h4 c h5 d
    have hv : b = 121 ∨ b = 89 := by
      simp only [Out.ok.injEq, Pair.verdict] at ho
      split at ho
      · assumption
      · simp at ho
    obtain ⟨g1, g2, rfl, hg1, hg2⟩ := guardedRead_ok hg
    obtain ⟨hf1, hf2, hf3, _⟩ := flush_facts hf fd
    refine ⟨r, h1 ++ (h2 ++ g1), ⟨.sockRead fd 1, res⟩, g2 ++ (h4 ++ h5), b, by simp, ?_, ?_, ?_, hv, ?_⟩
    · refine List.forall_mem_append.2 ⟨fun e he => ⟨hw.calls e he, (hw.yes rfl).2 e he⟩,
        List.forall_mem_append.2 ⟨fun e he => ⟨hf1 e he fd, hf3 rfl e he⟩,
          fun e he => ⟨(hg1 e he).1 fd, (hg1 e he).2.1⟩⟩⟩
    · rw [delivered_append, delivered_append, hf2, (hw.yes rfl).1,
        delivered_of_sent (fun e he => (hg1 e he).2.2 fd)]
      simp
    · exact read1_of_response hb (by rcases hv with rfl | rfl <;> decide)
    · exact List.forall_mem_append.2 ⟨fun e he => (hg2 e he).1 fd,
        List.forall_mem_append.2 ⟨hw1.calls, hw2.calls⟩⟩
  | writeStop hw ha => cases ha <;> simp at ho
  | echoStop hw hf hg hb hw1 ha => cases ha <;> simp at ho
  | nlStop hw hf hg hb hw1 hw2 ha => cases ha <;> simp at ho
  | _ => simp at ho

/-- Interactions of the prompt phase. -/
def PromptCall (fd : Nat) : Sys → Prop
  | .readFile _ => True
  | .sockRead fd' _ => fd' = fd
  | .sockWrite fd' _ => fd' = fd
  | .sigGet => True
  | .sigSet _ => True
  | _ => False

theorem promptCall_of_write {fd c} (h : WriteCall fd c) : PromptCall fd c := by
  cases c <;> first | exact h.elim | exact h

theorem promptCall_of {p : Pair} {fd o h} (hp : PromptRun p fd o h) : ∀ e ∈ h, PromptCall fd e.call := by
  have hw : ∀ {buf o h}, WroteAll fd buf o h → ∀ e ∈ h, PromptCall fd e.call :=
    fun h e he => promptCall_of_write (h.calls e he)
  have hf : ∀ {o h}, GuardedFlush o h → ∀ e ∈ h, PromptCall fd e.call :=
    fun h e he => promptCall_of_write ((flush_facts h fd).1 e he fd)
  have hg : ∀ {o h}, Guarded (.sockRead fd 1) o h → ∀ e ∈ h, PromptCall fd e.call := by
    intro o h hg; cases hg <;> simp [PromptCall]
  cases hp with
  | k0 => simp
  | writeErr h1 => exact List.forall_mem_cons.2 ⟨trivial, hw h1⟩
  | writeStop h1 => exact List.forall_mem_cons.2 ⟨trivial, hw h1⟩
  | flushErr h1 h2 =>
    exact List.forall_mem_cons.2 ⟨trivial, List.forall_mem_append.2 ⟨hw h1, hf h2⟩⟩
  | flushKilled h1 h2 =>
    exact List.forall_mem_cons.2 ⟨trivial, List.forall_mem_append.2 ⟨hw h1, hf h2⟩⟩
  | readKilled h1 h2 h3 =>
    exact List.forall_mem_cons.2 ⟨trivial, List.forall_mem_append.2 ⟨hw h1,
      List.forall_mem_append.2 ⟨hf h2, hg h3⟩⟩⟩
  | readErr h1 h2 h3 =>
    exact List.forall_mem_cons.2 ⟨trivial, List.forall_mem_append.2 ⟨hw h1,
      List.forall_mem_append.2 ⟨hf h2, hg h3⟩⟩⟩
  | echoStop h1 h2 h3 _ h4 =>
    exact List.forall_mem_cons.2 ⟨trivial, List.forall_mem_append.2 ⟨hw h1,
      List.forall_mem_append.2 ⟨hf h2, List.forall_mem_append.2 ⟨hg h3, hw h4⟩⟩⟩⟩
  | nlStop h1 h2 h3 _ h4 h5 =>
    exact List.forall_mem_cons.2 ⟨trivial, List.forall_mem_append.2 ⟨hw h1,
      List.forall_mem_append.2 ⟨hf h2, List.forall_mem_append.2 ⟨hg h3,
        List.forall_mem_append.2 ⟨hw h4, hw h5⟩⟩⟩⟩⟩
  | answered h1 h2 h3 _ h4 h5 =>
    exact List.forall_mem_cons.2 ⟨trivial, List.forall_mem_append.2 ⟨hw h1,
      List.forall_mem_append.2 ⟨hf h2, List.forall_mem_append.2 ⟨hg h3,
        List.forall_mem_append.2 ⟨hw h4, hw h5⟩⟩⟩⟩⟩

/-- What a whole approved `open` of the plugin looks like. -/
theorem pairOpen_approved {rt p q h} (hx : p.isExempt rt.debug ≠ some true)
    (hp : PairOpen rt p (.ok (.ok q)) h) :
    ∃ (h0 a : Hist) (lfd : Nat) (conn : Conn) (b : Hist) (r : Option Bytes) (h1 : Hist) (e : Ev)
      (h2 : Hist) (c : UInt8),
      h = h0 ++ (a ++ (⟨.accept lfd, some conn⟩ : Ev) :: (b ++
        (⟨.readFile p.options.pairPromptPath, r⟩ : Ev) :: (h1 ++ e :: h2))) ∧
      q = { p with socket := some conn.fd } ∧
      Quiet h0 ∧
      (⟨.bind p.socketPath, .bound lfd⟩ : Ev) ∈ a ∧ (∀ e ∈ a, SetupCall e.call ∧ ¬ Fails e) ∧
      (∀ e ∈ b, SetupCall e.call ∧ ¬ Fails e) ∧
      (∀ x ∈ h1, WriteCall conn.fd x.call ∧ ¬ Fails x) ∧ delivered conn.fd h1 = p.promptText r ∧
      Read1 c conn.fd e ∧ (c = 121 ∨ c = 89) ∧ (∀ x ∈ h2, WriteCall conn.fd x.call) := by
  cases hp with
  | exempt h => exact absurd h hx
  | approved hx0 hb0 hl hc hr =>
    rename_i h0 u h1 conn h2
    obtain ⟨mode, _, hs⟩ := hc
    obtain ⟨a, lfd, b, rfl, hb, ha1, hb1⟩ := sockOpen_connected (open'_runs hs)
    obtain ⟨r, g1, e, g2, c, rfl, h3, h4, h5, h6, h7⟩ := promptRun_approved (remotePairPrompt_runs hr)
    exact ⟨h0, a, lfd, conn, b, r, g1, e, g2, c, by simp, rfl,
      (localPairPrompt_quiet p _).of_runs hl, hb, ha1, hb1, h3, h4, h5, h6, h7⟩

/-- An accepted connection is what `Socket::open` returns. -/
theorem sockOpen_accept {rt path uid gid mode o h lfd conn}
    (hs : SockOpen rt path uid gid mode o h) (hm : (⟨.accept lfd, some conn⟩ : Ev) ∈ h) :
    o = .ok (some conn) ∨ o = .killed := by
  have hv : ∀ {o h}, Vet rt path o h → (⟨.accept lfd, some conn⟩ : Ev) ∉ h := by
    intro o h hv; cases hv <;> simp
  have hu : ∀ {o h}, Unlink path o h → (⟨.accept lfd, some conn⟩ : Ev) ∉ h := by
    intro o h hv; cases hv <;> simp
  have hb : ∀ {o h}, BindAcc rt path uid gid mode o h → (⟨.accept lfd, some conn⟩ : Ev) ∈ h →
      o = .ok (some conn) := by
    intro o h hb hm
    cases hb with
    | bound ha =>
      cases ha <;> simp at hm
      obtain ⟨rfl, hm⟩ := hm
      rw [← hm]
    | _ => simp at hm
  cases hs with
  | vetErr h1 => exact absurd hm (hv h1)
  | vetKilled h1 => exact Or.inr rfl
  | unlErr h1 h2 =>
    rcases List.mem_append.1 hm with hm | hm
    · exact absurd hm (hv h1)
    · exact absurd hm (hu h2)
  | accPanic h1 h2 h3 =>
    simp only [List.mem_append, List.mem_cons] at hm
    rcases hm with hm | hm | hm | hm
    · exact absurd hm (hv h1)
    · exact absurd hm (hu h2)
    · simp at hm
    · exact Or.inl (hb h3 hm)
  | done h1 h2 h3 h4 =>
    simp only [List.mem_append, List.mem_cons] at hm
    rcases hm with hm | hm | hm | hm | hm | hm | hm
    · exact absurd hm (hv h1)
    · exact absurd hm (hu h2)
    · simp at hm
    · exact Or.inl (hb h3 hm)
    · exact absurd hm (hu h4)
    · simp at hm
    · simp at hm
  | _ => exact Or.inr rfl

/-- Position of an event in a list split in two ways. -/
theorem split_pos {α : Type} {A B h1 h2 : List α} {x e : α} (h : A ++ x :: B = h1 ++ e :: h2) :
    e ∈ A ∨ e = x ∨ x ∈ h1 := by
  rcases List.append_eq_append_iff.1 h with ⟨t, rfl, h3⟩ | ⟨t, rfl, h3⟩
  · cases t with
    | nil => simp only [List.nil_append, List.cons.injEq] at h3; exact Or.inr (Or.inl h3.1.symm)
    | cons y t =>
      simp only [List.cons_append, List.cons.injEq] at h3
      rw [h3.1]; simp
  · cases t with
    | nil => simp only [List.nil_append, List.cons.injEq] at h3; exact Or.inr (Or.inl h3.1)
    | cons y t =>
      simp only [List.cons_append, List.cons.injEq] at h3
      rw [h3.1]; simp

end SudoPair
