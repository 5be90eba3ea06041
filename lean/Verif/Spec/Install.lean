import Verif.Model.Install
import Verif.Spec.Path
/-
Whether an installation is where the plugin looks for it.
-/
namespace SudoPair.Spec
open Install

/-- The place where the plugin looks for a thing, by its options. -/
def expected (o : PluginOptions) : Thing → Option Bytes
  | .socketDir => some o.socketDir
  | .script => some o.binaryPath
  | .pairPrompt => some o.pairPromptPath
  | .userPrompt => some o.userPromptPath
  | .library => none
  | .sudoers => none

/-- The thing is installed where the plugin looks for it. -/
def Found (l : List Placed) (o : PluginOptions) (t : Thing) : Prop :=
  ∃ x ∈ l, x.thing = t ∧ ∃ p, expected o t = some p ∧ SamePath x.path p

end SudoPair.Spec
