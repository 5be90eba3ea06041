import Verif.Model.Core
import Verif.Spec.Text
/-
What the pair is supposed to see of each callback.
-/
namespace SudoPair.Spec

/-- The terminal control sequence `ESC [ 8 ; lines ; cols t`. -/
def resize (lines cols : Nat) : Bytes :=
  [0x1b] ++ b! "[8;" ++ decimal lines ++ b! ";" ++ decimal cols ++ b! "t"

/-- The bytes the pair is to receive because of a callback: the output of each of the three output
facilities that sudo is told to log, and window-size changes; nothing for anything else. -/
def payload (ci : CommandInfo) : Core.Call → Bytes
  | .log .ttyout buf   => if ci.iologTtyout then buf else []
  | .log .stdout buf   => if ci.iologStdout then buf else []
  | .log .stderr buf   => if ci.iologStderr then buf else []
  | .changeWinsize l c => resize l c
  | _                  => []

end SudoPair.Spec
