import Verif.Spec.Frontend
import Verif.Spec.Mirror
import Verif.Spec.Trace
/-
The connection to the pair is lost (the pair closes their terminal, types Ctrl-D, or their network fails;
sample/etc/sudo_pair.prompt.pair:7): from then on the kernel accepts nothing that is written to it.
-/
namespace SudoPair.Spec
open Core

/-- If the event is an attempt to write to `fd`, then nothing was accepted. -/
def NotTaken (fd : Nat) : Ev → Prop
  | ⟨.sockWrite g _, r⟩ => g = fd → r = .fail ∨ r = .intr ∨ r = .wrote 0
  | _                   => True

/-- Nothing that is written to `fd` is accepted. -/
def Lost (fd : Nat) (h : Hist) : Prop := ∀ e ∈ h, NotTaken fd e

/-- The callback has nothing for the pair, and it is not input that is to be refused. -/
def Quietly (ci : CommandInfo) (c : Call) : Prop := payload ci c = [] ∧ ∀ buf, c = .log .stdin buf → ci.iologStdin = false

end SudoPair.Spec
