import Verif.Spec.Trace
/-
What can go wrong while a pair is asked: the replies of the system that make the session be refused, given what
has happened before.
-/
namespace SudoPair.Spec

/-- Something was read from somebody. -/
def HasRead (h : Hist) : Prop := ∃ e ∈ h, ∃ fd len, e.call = .sockRead fd len

/-- A socket was bound, or at least tried to. -/
def HasBound (h : Hist) : Prop := ∃ e ∈ h, ∃ p, e.call = .bind p

/-- More bytes are said to be written than there were. -/
def Overcounts (buf : Bytes) (r : WriteRes) : Prop := ∃ n, r = .wrote n ∧ buf.length < n

/-- The last thing that happened is a write to the pair of which more was accepted than offered. -/
def EndsInOvercount (h : Hist) : Prop :=
  ∃ h' fd buf r, h = h' ++ [(⟨.sockWrite fd buf, r⟩ : Ev)] ∧ Overcounts buf r

/-- The interaction `e`, after the interactions `h`, ruins the handshake.  `root` is the required owner of the
directory, `fds` the number of descriptors that `select` can handle. -/
def Mishap (root fds : Nat) (h : Hist) : Ev → Prop
  /- the directory cannot be examined, or others can write to it -/
  | ⟨.stat _, r⟩ => ∀ st, r = some st → ¬ (st.mode &&& 0o040000 ≠ 0 ∧ st.uid = root ∧ st.mode &&& 0o022 = 0)
  /- something else is where the socket should be, or a stale socket cannot be removed -/
  | ⟨.metadata _, r⟩ => r = some false ∧ ¬ HasBound h
  | ⟨.removeFile _, ok⟩ => ok = false ∧ ¬ HasBound h
  /- the socket cannot be made, waited for, given away or opened -/
  | ⟨.bind _, r⟩ => ∀ fd, r = .bound fd → fds ≤ fd
  | ⟨.chown _ _ _, ok⟩ => ok = false
  | ⟨.chmod _ _, ok⟩ => ok = false
  /- nobody comes -/
  | ⟨.select _, r⟩ => r ≠ (1, true)
  | ⟨.accept _, r⟩ => r = none
  /- the prompt cannot be delivered -/
  | ⟨.sockWrite _ buf, r⟩ => (r = .fail ∨ r = .wrote 0 ∨ Overcounts buf r) ∧ ¬ HasRead h
  /- the answer is not yes -/
  | ⟨.sockRead _ _, r⟩ => ∀ b l hl, r = .data (b :: l) hl → ¬ (b = 121 ∨ b = 89)
  /- signals cannot be arranged for the prompt or the answer; or the write before was absurd -/
  | ⟨.sigGet, r⟩ => r = none ∧ ¬ HasRead h
  | ⟨.sigSet _, ok⟩ => (ok = false ∧ ¬ HasRead h.dropLast) ∨ (ok = true ∧ EndsInOvercount h)
  /- the write of the user's prompt was absurd -/
  | ⟨.printf _ buf, r⟩ => Overcounts buf r
  | ⟨.ttyWrite buf, r⟩ => Overcounts buf r
  | _ => False

end SudoPair.Spec
