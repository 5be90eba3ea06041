import Verif.Lemmas.CoreRuns
import Verif.Spec.Trace
/-
Reading from and writing to the connected pair.
-/
namespace SudoPair
open Spec

theorem delivered_nil (fd : Nat) : delivered fd [] = [] := rfl

theorem delivered_append (fd : Nat) (h h' : Hist) :
    delivered fd (h ++ h') = delivered fd h ++ delivered fd h' := by
  simp [delivered, List.flatMap_append]

/-- An interaction on the connection `fd` other than a read. -/
def WriteCall (fd : Nat) : Sys → Prop
  | .sigGet => True
  | .sigSet _ => True
  | .sockWrite fd' _ => fd' = fd
  | _ => False

/-- Runs of `ctrl_c_aborts_syscalls` around one system call. -/
inductive Guarded (c : Sys) : Out (Option (Resp c)) → Hist → Prop
  | k0 : Guarded c .killed []
  | noGet : Guarded c (.ok none) [⟨.sigGet, none⟩]
  | k1 (old : SigAction) : Guarded c .killed [⟨.sigGet, some old⟩]
  | noSet (old : SigAction) : Guarded c (.ok none) [⟨.sigGet, some old⟩,
      ⟨.sigSet { old with flags := old.flags &&& ~~~ SA_RESTART }, false⟩]
  | k2 (old : SigAction) : Guarded c .killed [⟨.sigGet, some old⟩,
      ⟨.sigSet { old with flags := old.flags &&& ~~~ SA_RESTART }, true⟩]
  | k3 (old : SigAction) (r : Resp c) : Guarded c .killed [⟨.sigGet, some old⟩,
      ⟨.sigSet { old with flags := old.flags &&& ~~~ SA_RESTART }, true⟩, ⟨c, r⟩]
  | noReset (old : SigAction) (r : Resp c) : Guarded c (.ok none) [⟨.sigGet, some old⟩,
      ⟨.sigSet { old with flags := old.flags &&& ~~~ SA_RESTART }, true⟩, ⟨c, r⟩, ⟨.sigSet old, false⟩]
  | done (old : SigAction) (r : Resp c) : Guarded c (.ok (some r)) [⟨.sigGet, some old⟩,
      ⟨.sigSet { old with flags := old.flags &&& ~~~ SA_RESTART }, true⟩, ⟨c, r⟩, ⟨.sigSet old, true⟩]

theorem ctrlCAborts_runs {c : Sys} {o h} (hr : Runs (ctrlCAborts (M.sys c)) o h) : Guarded c o h := by
  unfold ctrlCAborts at hr
  inv Runs.sys_bind hr with ⟨rfl, rfl⟩ | ⟨r, h', hr, rfl⟩
  · exact .k0
  · rcases r with _ | old
    · obtain ⟨rfl, rfl⟩ := hr.pure; exact .noGet
    · simp only at hr
      inv Runs.sys_bind hr with ⟨rfl, rfl⟩ | ⟨r, h', hr, rfl⟩
      · exact .k1 old
      · rcases r with _ | _
        · obtain ⟨rfl, rfl⟩ := hr.pure; exact .noSet old
        · simp only [if_true] at hr
          inv Runs.sys_bind hr with ⟨rfl, rfl⟩ | ⟨res, h', hr, rfl⟩
          · exact .k2 old
          · inv Runs.sys_bind hr with ⟨rfl, rfl⟩ | ⟨r, h', hr, rfl⟩
            · exact .k3 old res
            · rcases r with _ | _
              · obtain ⟨rfl, rfl⟩ := hr.pure; exact .noReset old res
              · obtain ⟨rfl, rfl⟩ := hr.pure; exact .done old res

/-- Runs of `ctrl_c_aborts_syscalls` around `flush`, which does nothing. -/
inductive GuardedFlush : Out Bool → Hist → Prop
  | k0 : GuardedFlush .killed []
  | noGet : GuardedFlush (.ok false) [⟨.sigGet, none⟩]
  | k1 (old : SigAction) : GuardedFlush .killed [⟨.sigGet, some old⟩]
  | noSet (old : SigAction) : GuardedFlush (.ok false) [⟨.sigGet, some old⟩,
      ⟨.sigSet { old with flags := old.flags &&& ~~~ SA_RESTART }, false⟩]
  | k2 (old : SigAction) : GuardedFlush .killed [⟨.sigGet, some old⟩,
      ⟨.sigSet { old with flags := old.flags &&& ~~~ SA_RESTART }, true⟩]
  | noReset (old : SigAction) : GuardedFlush (.ok false) [⟨.sigGet, some old⟩,
      ⟨.sigSet { old with flags := old.flags &&& ~~~ SA_RESTART }, true⟩, ⟨.sigSet old, false⟩]
  | done (old : SigAction) : GuardedFlush (.ok true) [⟨.sigGet, some old⟩,
      ⟨.sigSet { old with flags := old.flags &&& ~~~ SA_RESTART }, true⟩, ⟨.sigSet old, true⟩]

theorem flush_runs {o h} (hr : Runs Socket.flush o h) : GuardedFlush o h := by
  have key : ∀ {o h}, Runs (ctrlCAborts (pure () : M Unit)) o h →
      (o = .killed ∧ GuardedFlush .killed h) ∨ (o = .ok none ∧ GuardedFlush (.ok false) h) ∨
      (o = .ok (some ()) ∧ GuardedFlush (.ok true) h) := by
    intro o h hr
    unfold ctrlCAborts at hr
    inv Runs.sys_bind hr with ⟨rfl, rfl⟩ | ⟨r, h', hr, rfl⟩
    · exact Or.inl ⟨rfl, .k0⟩
    · rcases r with _ | old
      · obtain ⟨rfl, rfl⟩ := hr.pure; exact Or.inr (Or.inl ⟨rfl, .noGet⟩)
      · simp only at hr
        inv Runs.sys_bind hr with ⟨rfl, rfl⟩ | ⟨r, h', hr, rfl⟩
        · exact Or.inl ⟨rfl, .k1 old⟩
        · rcases r with _ | _
          · obtain ⟨rfl, rfl⟩ := hr.pure; exact Or.inr (Or.inl ⟨rfl, .noSet old⟩)
          · simp only [if_true] at hr
            replace hr := hr.pure_bind
            inv Runs.sys_bind hr with ⟨rfl, rfl⟩ | ⟨r, h', hr, rfl⟩
            · exact Or.inl ⟨rfl, .k2 old⟩
            · rcases r with _ | _
              · obtain ⟨rfl, rfl⟩ := hr.pure; exact Or.inr (Or.inl ⟨rfl, .noReset old⟩)
              · obtain ⟨rfl, rfl⟩ := hr.pure; exact Or.inr (Or.inr ⟨rfl, .done old⟩)
  unfold Socket.flush at hr
  inv Runs.bind hr with ⟨x, h1, h2, hc, hr, rfl⟩ | ⟨rfl, hc⟩ | ⟨rfl, hc⟩
  · rcases key hc with ⟨h, _⟩ | ⟨h, hg⟩ | ⟨h, hg⟩
    · simp at h
    · simp only [Out.ok.injEq] at h; subst h
      obtain ⟨rfl, rfl⟩ := hr.pure
      rw [List.append_nil]; exact hg
    · simp only [Out.ok.injEq] at h; subst h
      obtain ⟨rfl, rfl⟩ := hr.pure
      rw [List.append_nil]; exact hg
  · rcases key hc with ⟨h, _⟩ | ⟨h, hg⟩ | ⟨h, hg⟩ <;> simp at h
  · rcases key hc with ⟨_, hg⟩ | ⟨h, hg⟩ | ⟨h, hg⟩
    · exact hg
    · simp at h
    · simp at h

/-- The result seen by the caller of `read`/`write`. -/
theorem write_runs {fd buf o h} (hr : Runs (Socket.write fd buf) o h) :
    ∃ o', Guarded (.sockWrite fd buf) o' h ∧
      ((o' = .killed ∧ o = .killed) ∨ (o' = .ok none ∧ o = .ok .fail) ∨
        ∃ r, o' = .ok (some r) ∧ o = .ok r) := by
  unfold Socket.write at hr
  inv Runs.bind hr with ⟨x, h1, h2, hc, hr, rfl⟩ | ⟨rfl, hc⟩ | ⟨rfl, hc⟩
  · have hg := ctrlCAborts_runs hc
    rcases x with _ | r
    · obtain ⟨rfl, rfl⟩ := hr.pure
      rw [List.append_nil]; exact ⟨_, hg, Or.inr (Or.inl ⟨rfl, rfl⟩)⟩
    · obtain ⟨rfl, rfl⟩ := hr.pure
      rw [List.append_nil]; exact ⟨_, hg, Or.inr (Or.inr ⟨r, rfl, rfl⟩)⟩
  · have hg := ctrlCAborts_runs hc
    cases hg
  · have hg := ctrlCAborts_runs hc
    exact ⟨_, hg, Or.inl ⟨rfl, rfl⟩⟩

theorem read_runs {fd len o h} (hr : Runs (Socket.read fd len) o h) :
    ∃ o', Guarded (.sockRead fd len) o' h ∧
      ((o' = .killed ∧ o = .killed) ∨ (o' = .ok none ∧ o = .ok .fail) ∨
        ∃ r, o' = .ok (some r) ∧ o = .ok r) := by
  unfold Socket.read at hr
  inv Runs.bind hr with ⟨x, h1, h2, hc, hr, rfl⟩ | ⟨rfl, hc⟩ | ⟨rfl, hc⟩
  · have hg := ctrlCAborts_runs hc
    rcases x with _ | r
    · obtain ⟨rfl, rfl⟩ := hr.pure
      rw [List.append_nil]; exact ⟨_, hg, Or.inr (Or.inl ⟨rfl, rfl⟩)⟩
    · obtain ⟨rfl, rfl⟩ := hr.pure
      rw [List.append_nil]; exact ⟨_, hg, Or.inr (Or.inr ⟨r, rfl, rfl⟩)⟩
  · have hg := ctrlCAborts_runs hc
    cases hg
  · have hg := ctrlCAborts_runs hc
    exact ⟨_, hg, Or.inl ⟨rfl, rfl⟩⟩

/-- Everything about `write_all` on the pair's socket. -/
structure WroteAll (fd : Nat) (buf : Bytes) (o : Out Bool) (h : Hist) : Prop where
  calls : ∀ e ∈ h, WriteCall fd e.call
  pre : delivered fd h <+: buf
  yes : o = .ok true → delivered fd h = buf ∧ ∀ e ∈ h, ¬ Fails e
  no : o = .ok false → (∃ e ∈ h, Fails e) ∧
    (delivered fd h = buf → (∃ act, (⟨.sigSet act, false⟩ : Ev) ∈ h))
  panic : o = .panic → ∃ e ∈ h, Overcount e

theorem delivered_sig (fd : Nat) (a : SigAction) (b : Bool) : sent fd ⟨.sigSet a, b⟩ = [] := rfl
theorem delivered_sigGet (fd : Nat) (a : Option SigAction) : sent fd ⟨.sigGet, a⟩ = [] := rfl

theorem socketWriteAll_runs {fd buf o h} (hr : Runs (Socket.writeAll fd buf) o h) :
    WroteAll fd buf o h := by
  unfold Socket.writeAll at hr
  refine wp_iff_runs.1 (wp_writeAll (P := WroteAll fd) ?_ ?_ ?_ buf) o h hr
  · exact ⟨by simp, by simp [delivered], by simp [delivered], by simp, by simp⟩
  · intro buf hne
    exact ⟨by simp, by simp [delivered], by simp, by simp, by simp⟩
  · intro buf hne
    rw [wp_iff_runs]
    intro o h hw
    obtain ⟨o', hg, ho⟩ := write_runs hw
    have hlen : buf.length ≠ 0 := by simpa using hne
    -- runs that end the loop
    have stop : ∀ {o : Out Bool} {h : Hist}, (∀ e ∈ h, WriteCall fd e.call) → delivered fd h <+: buf →
        (o = .ok false ∧ (∃ e ∈ h, Fails e) ∧
          (delivered fd h = buf → ∃ act, (⟨.sigSet act, false⟩ : Ev) ∈ h) ∨ o = .killed) →
        WroteAll fd buf o h := by
      intro o h h1 h2 h3
      refine ⟨h1, h2, ?_, ?_, ?_⟩
      · rcases h3 with ⟨rfl, _⟩ | rfl <;> simp
      · rcases h3 with ⟨rfl, h3, h4⟩ | rfl
        · exact fun _ => ⟨h3, h4⟩
        · simp
      · rcases h3 with ⟨rfl, _⟩ | rfl <;> simp
    cases hg with
    | k0 =>
      rcases ho with ⟨_, rfl⟩ | ⟨h, _⟩ | ⟨r, h, _⟩
      · exact stop (by simp) (by simp [delivered]) (Or.inr rfl)
      · simp at h
      · simp at h
    | noGet =>
      rcases ho with ⟨h, _⟩ | ⟨_, rfl⟩ | ⟨r, h, _⟩
      · simp at h
      · exact stop (by simp [WriteCall]) (by simp [delivered, sent])
          (Or.inl ⟨rfl, by simp [Fails], by simp [delivered, sent, hne.symm]⟩)
      · simp at h
    | k1 old =>
      rcases ho with ⟨_, rfl⟩ | ⟨h, _⟩ | ⟨r, h, _⟩
      · exact stop (by simp [WriteCall]) (by simp [delivered, sent]) (Or.inr rfl)
      · simp at h
      · simp at h
    | noSet old =>
      rcases ho with ⟨h, _⟩ | ⟨_, rfl⟩ | ⟨r, h, _⟩
      · simp at h
      · exact stop (by simp [WriteCall]) (by simp [delivered, sent])
          (Or.inl ⟨rfl, by simp [Fails], by simp [delivered, sent, hne.symm]⟩)
      · simp at h
    | k2 old =>
      rcases ho with ⟨_, rfl⟩ | ⟨h, _⟩ | ⟨r, h, _⟩
      · exact stop (by simp [WriteCall]) (by simp [delivered, sent]) (Or.inr rfl)
      · simp at h
      · simp at h
    | k3 old r =>
      rcases ho with ⟨_, rfl⟩ | ⟨h, _⟩ | ⟨r, h, _⟩
      · refine stop (by simp [WriteCall]) ?_ (Or.inr rfl)
        rcases r with n | _ | _ <;> simp [delivered, sent, List.take_prefix]
      · simp at h
      · simp at h
    | noReset old r =>
      rcases ho with ⟨h, _⟩ | ⟨_, rfl⟩ | ⟨r, h, _⟩
      · simp at h
      · refine stop (by simp [WriteCall]) ?_ (Or.inl ⟨rfl, ⟨⟨.sigSet old, false⟩, by simp, rfl⟩, fun _ => ⟨old, by simp⟩⟩)
        rcases r with n | _ | _ <;> simp [delivered, sent, List.take_prefix]
      · simp at h
    | done old r =>
      rcases ho with ⟨h, _⟩ | ⟨h, _⟩ | ⟨r', h, rfl⟩
      · simp at h
      · simp at h
      · simp only [Out.ok.injEq, Option.some.injEq] at h
        subst h
        rcases r with (_ | n) | _ | _
        · exact stop (by simp [WriteCall]) (by simp [delivered, sent])
            (Or.inl ⟨rfl, by simp [Fails], by simp [delivered, sent, hne.symm]⟩)
        · refine ⟨fun hle o h' hp => ?_, fun hlt => ?_⟩
          · have hd : ∀ h', delivered fd (([⟨.sigGet, some old⟩,
                ⟨.sigSet { old with flags := old.flags &&& ~~~ SA_RESTART }, true⟩,
                ⟨.sockWrite fd buf, .wrote (n + 1)⟩, ⟨.sigSet old, true⟩] : Hist) ++ h') =
                buf.take (n + 1) ++ delivered fd h' := by
              intro h'; simp [delivered, sent]
            refine ⟨?_, ?_, ?_, ?_, ?_⟩
            · exact List.forall_mem_append.2 ⟨by simp [WriteCall], hp.calls⟩
            · rw [hd]
              obtain ⟨t, ht⟩ := hp.pre
              exact ⟨t, by rw [List.append_assoc, ht, List.take_append_drop]⟩
            · intro ho
              obtain ⟨h1, h2⟩ := hp.yes ho
              refine ⟨by rw [hd, h1, List.take_append_drop], ?_⟩
              exact List.forall_mem_append.2 ⟨by simp [Fails], h2⟩
            · intro ho
              obtain ⟨⟨e, h1, h2⟩, h3⟩ := hp.no ho
              refine ⟨⟨e, List.mem_append_right _ h1, h2⟩, ?_⟩
              intro heq
              rw [hd] at heq
              have : delivered fd h' = buf.drop (n + 1) := by
                apply List.append_cancel_left (as := buf.take (n + 1))
                rw [heq, List.take_append_drop]
              obtain ⟨act, hact⟩ := h3 this
              exact ⟨act, List.mem_append_right _ hact⟩
            · intro ho
              obtain ⟨e, h1, h2⟩ := hp.panic ho
              exact ⟨e, List.mem_append_right _ h1, h2⟩
          · refine ⟨by simp [WriteCall], by simp [delivered, sent, List.take_prefix], by simp, by simp, ?_⟩
            intro _
            exact ⟨⟨.sockWrite fd buf, .wrote (n + 1)⟩, by simp, hlt⟩
        · intro o h' hp
          have hd : ∀ h', delivered fd (([⟨.sigGet, some old⟩,
                ⟨.sigSet { old with flags := old.flags &&& ~~~ SA_RESTART }, true⟩,
                ⟨.sockWrite fd buf, .intr⟩, ⟨.sigSet old, true⟩] : Hist) ++ h') = delivered fd h' := by
            intro h'; simp [delivered, sent]
          refine ⟨?_, by rw [hd]; exact hp.pre, ?_, ?_, ?_⟩
          · exact List.forall_mem_append.2 ⟨by simp [WriteCall], hp.calls⟩
          · intro ho
            obtain ⟨h1, h2⟩ := hp.yes ho
            refine ⟨by rw [hd, h1], ?_⟩
            exact List.forall_mem_append.2 ⟨by simp [Fails], h2⟩
          · intro ho
            obtain ⟨⟨e, h1, h2⟩, h3⟩ := hp.no ho
            refine ⟨⟨e, List.mem_append_right _ h1, h2⟩, ?_⟩
            rw [hd]
            intro heq
            obtain ⟨act, hact⟩ := h3 heq
            exact ⟨act, List.mem_append_right _ hact⟩
          · intro ho
            obtain ⟨e, h1, h2⟩ := hp.panic ho
            exact ⟨e, List.mem_append_right _ h1, h2⟩
        · exact stop (by simp [WriteCall]) (by simp [delivered, sent])
            (Or.inl ⟨rfl, by simp [Fails], by simp [delivered, sent, hne.symm]⟩)

end SudoPair
