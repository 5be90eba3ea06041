import Verif.Model.Os
/-
The disposition of SIGINT during a history.
-/
namespace SudoPair.Spec

/-- The disposition after an interaction. -/
def sigStep (cur : SigAction) : Ev → SigAction
  | ⟨.sigSet act, true⟩ => act
  | _ => cur

/-- The disposition after a history that began with `cur`. -/
def disposition (cur : SigAction) (h : Hist) : SigAction := h.foldl sigStep cur

/-- The kernel reports the disposition that is in force. -/
def sigTruth : SigAction → Hist → Bool
  | _, [] => true
  | cur, e :: h => (match e with
      | ⟨.sigGet, some act⟩ => act = cur
      | _ => true) && sigTruth (sigStep cur e) h

/-- `d` is `cur` without `SA_RESTART` (bit 28 of the flag word): system calls are interrupted by SIGINT
and everything else is as before. -/
def Interrupting (cur d : SigAction) : Prop :=
  d.handler = cur.handler ∧ d.mask = cur.mask ∧ d.flags.getLsbD 28 = false ∧
  ∀ i, i ≠ 28 → d.flags.getLsbD i = cur.flags.getLsbD i

/-- An interaction with the pair that can block. -/
def PairIo : Ev → Prop
  | ⟨.sockRead _ _, _⟩ => True
  | ⟨.sockWrite _ _, _⟩ => True
  | _ => False

/-- The disposition could not be changed. -/
def SigSetFails : Ev → Prop
  | ⟨.sigSet _, r⟩ => r = false
  | _ => False

end SudoPair.Spec
