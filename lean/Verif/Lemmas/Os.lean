import Verif.Model.Os
/-
A weakest-precondition calculus for `M`, and the loop rules for `write_all`.
-/
namespace SudoPair

variable {α β : Type}

/-- `wp m Q`: for every schedule (every behaviour of the environment and every crash point), the
outcome and the history of `m` satisfy `Q`. -/
def wp (m : M α) (Q : Out α → Hist → Prop) : Prop := ∀ s, Q (m s).1 (m s).2.1

theorem wp_mono {m : M α} {Q R : Out α → Hist → Prop} (h : wp m Q) (hQR : ∀ o h, Q o h → R o h) :
    wp m R := fun s => hQR _ _ (h s)

theorem wp_and {m : M α} {Q R : Out α → Hist → Prop} (h : wp m Q) (h' : wp m R) :
    wp m (fun o t => Q o t ∧ R o t) := fun s => ⟨h s, h' s⟩

theorem wp_pure {a : α} {Q : Out α → Hist → Prop} (h : Q (.ok a) []) : wp (pure a : M α) Q :=
  fun _ => h

theorem wp_panic {Q : Out α → Hist → Prop} (h : Q .panic []) : wp (M.panic : M α) Q :=
  fun _ => h

theorem wp_killed {Q : Out α → Hist → Prop} (h : Q .killed []) : wp (M.killed : M α) Q :=
  fun _ => h

/-- The postcondition `m` must establish for `m >>= f` to establish `Q`. -/
def bindPost (f : α → M β) (Q : Out β → Hist → Prop) : Out α → Hist → Prop
  | .ok a,   h => wp (f a) (fun o h' => Q o (h ++ h'))
  | .panic,  h => Q .panic h
  | .killed, h => Q .killed h

theorem M.bind_def (m : M α) (f : α → M β) (s : Sched) :
    (m >>= f) s = match m s with
      | (.ok a, h, s')   => ((f a s').1, h ++ (f a s').2.1, (f a s').2.2)
      | (.panic, h, s')  => (.panic, h, s')
      | (.killed, h, s') => (.killed, h, s') := by
  show M.bind m f s = _
  unfold M.bind
  rcases m s with ⟨o | _ | _, h, s'⟩ <;> rfl

theorem wp_bind {m : M α} {f : α → M β} {Q : Out β → Hist → Prop} (h : wp m (bindPost f Q)) :
    wp (m >>= f) Q := by
  intro s
  have := h s
  rw [M.bind_def]
  rcases hm : m s with ⟨o | _ | _, h', s'⟩ <;> rw [hm] at this <;> simp [bindPost] at this ⊢
  · exact this s'
  · exact this
  · exact this

theorem wp_sys {c : Sys} {Q : Out (Resp c) → Hist → Prop}
    (h0 : Q .killed []) (h1 : ∀ r, Q (.ok r) [⟨c, r⟩]) : wp (M.sys c) Q := by
  intro s
  cases s with
  | nil => exact h0
  | cons a s => exact h1 (a c)

theorem wp_sys_bind {c : Sys} {f : Resp c → M β} {Q : Out β → Hist → Prop}
    (h0 : Q .killed []) (h1 : ∀ r, wp (f r) (fun o h => Q o (⟨c, r⟩ :: h))) :
    wp (M.sys c >>= f) Q :=
  wp_bind (wp_sys h0 h1)

theorem wp_pure_bind {a : α} {f : α → M β} {Q : Out β → Hist → Prop}
    (h : wp (f a) Q) : wp ((pure a : M α) >>= f) Q :=
  wp_bind (wp_pure h)

theorem wp_panic_bind {f : α → M β} {Q : Out β → Hist → Prop}
    (h : Q .panic []) : wp ((M.panic : M α) >>= f) Q :=
  wp_bind (wp_panic h)

/-- Postcondition for `catchUnwind`. -/
def catchPost (Q : Out (Option α) → Hist → Prop) : Out α → Hist → Prop
  | .ok a,   h => Q (.ok (some a)) h
  | .panic,  h => Q (.ok none) h
  | .killed, h => Q .killed h

theorem wp_catchUnwind {m : M α} {Q : Out (Option α) → Hist → Prop} (h : wp m (catchPost Q)) :
    wp (M.catchUnwind m) Q := by
  intro s
  have := h s
  unfold M.catchUnwind
  rcases hm : m s with ⟨o | _ | _, h', s'⟩ <;> rw [hm] at this <;> exact this

/-- Postcondition for `onUnwind`. -/
def unwindPost (cleanup : M Unit) (Q : Out α → Hist → Prop) : Out α → Hist → Prop
  | .ok a,   h => Q (.ok a) h
  | .killed, h => Q .killed h
  | .panic,  h => wp cleanup (fun o h' => match o with
      | .killed => Q .killed (h ++ h')
      | _       => Q .panic (h ++ h'))

theorem wp_onUnwind {m : M α} {cleanup : M Unit} {Q : Out α → Hist → Prop}
    (h : wp m (unwindPost cleanup Q)) : wp (M.onUnwind m cleanup) Q := by
  intro s
  have := h s
  unfold M.onUnwind
  rcases hm : m s with ⟨o | _ | _, h', s'⟩ <;> rw [hm] at this
  · exact this
  · have := this s'
    revert this
    simp only
    rcases cleanup s' with ⟨o | _ | _, h'', s''⟩ <;> exact id
  · exact this

/-- Sequencing with the continuation's results, for `if ← m then … else …`. -/
theorem wp_ite {c : Prop} [Decidable c] {m n : M α} {Q : Out α → Hist → Prop}
    (ht : c → wp m Q) (hf : ¬ c → wp n Q) : wp (if c then m else n) Q := by
  split
  · exact ht ‹_›
  · exact hf ‹_›

/-! ### `write_all` -/

/-- What one round of `write_all` has to establish: `P buf o h` describes complete runs on `buf`. -/
def roundPost (P : Bytes → Out Bool → Hist → Prop) (buf : Bytes) : Out WriteRes → Hist → Prop
  | .ok (.wrote 0),       h => P buf (.ok false) h
  | .ok (.wrote (n + 1)), h =>
      (n + 1 ≤ buf.length → ∀ o h', P (buf.drop (n + 1)) o h' → P buf o (h ++ h')) ∧
      (buf.length < n + 1 → P buf .panic h)
  | .ok .intr,            h => ∀ o h', P buf o h' → P buf o (h ++ h')
  | .ok .fail,            h => P buf (.ok false) h
  | .panic,               h => P buf .panic h
  | .killed,              h => P buf .killed h

theorem wp_writeAllFuel {w : Bytes → M WriteRes} {P : Bytes → Out Bool → Hist → Prop}
    (hnil : P [] (.ok true) [])
    (hkill : ∀ buf, buf ≠ [] → P buf .killed [])
    (hround : ∀ buf, buf ≠ [] → wp (w buf) (roundPost P buf)) :
    ∀ fuel buf, wp (writeAllFuel w fuel buf) (P buf) := by
  intro fuel
  induction fuel with
  | zero =>
    intro buf
    cases buf with
    | nil => unfold writeAllFuel; exact wp_pure hnil
    | cons b bs => unfold writeAllFuel; exact wp_killed (hkill _ (by simp))
  | succ fuel ih =>
    intro buf
    cases buf with
    | nil => unfold writeAllFuel; exact wp_pure hnil
    | cons b bs =>
      unfold writeAllFuel
      refine wp_bind (wp_mono (hround (b :: bs) (by simp)) ?_)
      rintro (r | _ | _) h hr
      · simp only [bindPost]
        rcases r with (_ | n) | _ | _ <;> simp only [writeRound]
        · refine wp_pure ?_
          simpa [roundPost] using hr
        · simp only [roundPost] at hr
          refine wp_ite (fun hc => ?_) (fun hc => ?_)
          · exact wp_mono (ih _) (fun o h' hp => hr.1 (by simpa using hc) o h' hp)
          · refine wp_panic ?_
            simpa using hr.2 (by simpa using hc)
        · exact wp_mono (ih _) (fun o h' hp => hr o h' hp)
        · refine wp_pure ?_
          simpa [roundPost] using hr
      · exact hr
      · exact hr

/-- Loop rule for `write_all`. -/
theorem wp_writeAll {w : Bytes → M WriteRes} {P : Bytes → Out Bool → Hist → Prop}
    (hnil : P [] (.ok true) [])
    (hkill : ∀ buf, buf ≠ [] → P buf .killed [])
    (hround : ∀ buf, buf ≠ [] → wp (w buf) (roundPost P buf)) (buf : Bytes) :
    wp (writeAll w buf) (P buf) :=
  fun s => wp_writeAllFuel hnil hkill hround (s.length + 1) buf s

/-- The writer uses up part of the schedule whenever it reports progress or an interruption, and
never more than there is. -/
def Consumes (w : Bytes → M WriteRes) : Prop :=
  ∀ buf s, (w buf s).2.2.length ≤ s.length ∧
    (∀ n, (w buf s).1 = .ok (.wrote (n + 1)) → (w buf s).2.2.length < s.length) ∧
    ((w buf s).1 = .ok .intr → (w buf s).2.2.length < s.length)

theorem writeAllFuel_stable {w : Bytes → M WriteRes} (hw : Consumes w) :
    ∀ fuel fuel' buf s, s.length < fuel → s.length < fuel' →
      writeAllFuel w fuel buf s = writeAllFuel w fuel' buf s := by
  intro fuel
  induction fuel with
  | zero => intro fuel' buf s h; omega
  | succ fuel ih =>
    intro fuel' buf s h h'
    cases fuel' with
    | zero => omega
    | succ fuel' =>
      cases buf with
      | nil => simp [writeAllFuel]
      | cons b bs =>
        unfold writeAllFuel
        rw [M.bind_def, M.bind_def]
        obtain ⟨h1, h2, h3⟩ := hw (b :: bs) s
        rcases hws : w (b :: bs) s with ⟨o, hh, s'⟩
        rw [hws] at h1 h2 h3
        simp only at h1 h2 h3
        rcases o with (((_ | n) | _ | _) | _ | _)
        · rfl
        · have := h2 n rfl
          simp only [writeRound]
          split
          · rw [ih fuel' _ s' (by omega) (by omega)]
          · rfl
        · have := h3 rfl
          simp only [writeRound]
          rw [ih fuel' _ s' (by omega) (by omega)]
        · rfl
        · rfl
        · rfl

/-- `writeAll` satisfies the loop equation of `Write::write_all` with no bound on the number of
rounds. -/
theorem writeAll_eq {w : Bytes → M WriteRes} (hw : Consumes w) (b : UInt8) (bs : Bytes) :
    writeAll w (b :: bs) = (do
      let r ← w (b :: bs)
      writeRound (writeAll w) (b :: bs) r) := by
  funext s
  rw [M.bind_def]
  show writeAllFuel w (s.length + 1) (b :: bs) s = _
  rw [writeAllFuel, M.bind_def]
  obtain ⟨h1, h2, h3⟩ := hw (b :: bs) s
  rcases hws : w (b :: bs) s with ⟨o, hh, s'⟩
  rw [hws] at h1 h2 h3
  simp only at h1 h2 h3
  rcases o with (((_ | n) | _ | _) | _ | _)
  · rfl
  · have := h2 n rfl
    by_cases hc : n + 1 ≤ (b :: bs).length
    · simp only [writeRound, if_pos hc, writeAll]
      rw [writeAllFuel_stable hw s.length (s'.length + 1) _ s' (by omega) (by omega)]
    · simp only [writeRound, if_neg hc]
  · have := h3 rfl
    simp only [writeRound, writeAll]
    rw [writeAllFuel_stable hw s.length (s'.length + 1) _ s' (by omega) (by omega)]
  · rfl
  · rfl
  · rfl

theorem writeAll_nil (w : Bytes → M WriteRes) : writeAll w [] = pure true := by
  funext s; simp [writeAll, writeAllFuel]

end SudoPair
