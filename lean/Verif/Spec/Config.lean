import Verif.Model.Pair
import Verif.Spec.Text
/-
The configuration of the plugin as an administrator writes it behind the names of the plugin in sudo.conf (README,
section `/etc/sudo.conf`; sample/etc/sudo.conf:11; sample/Makefile:35).
-/
namespace SudoPair.Spec

/-- The six documented options; `none`: not given. -/
structure Conf where
  binaryPath     : Option Bytes := none
  userPromptPath : Option Bytes := none
  pairPromptPath : Option Bytes := none
  socketDir      : Option Bytes := none
  gidsEnforced   : Option (List Nat) := none
  gidsExempted   : Option (List Nat) := none

/-- A comma-separated list of numbers. -/
def commaList : List Nat → Bytes
  | []      => []
  | [n]     => decimal n
  | n :: ns => decimal n ++ b! "," ++ commaList ns

/-- An option given by name and text. -/
def given (key : Bytes) : Option Bytes → List Bytes
  | none   => []
  | some v => [key ++ b! "=" ++ v]

/-- The words to be written behind the names of the plugin. -/
def Conf.words (c : Conf) : List Bytes :=
  given (b! "binary_path") c.binaryPath ++
  given (b! "user_prompt_path") c.userPromptPath ++
  given (b! "pair_prompt_path") c.pairPromptPath ++
  given (b! "socket_dir") c.socketDir ++
  given (b! "gids_enforced") (c.gidsEnforced.map commaList) ++
  given (b! "gids_exempted") (c.gidsExempted.map commaList)

/-- The paths are text, the lists are not empty, and the gids are 32-bit numbers. -/
def Conf.Sound (c : Conf) : Prop :=
  (∀ v, c.binaryPath = some v ∨ c.userPromptPath = some v ∨ c.pairPromptPath = some v ∨ c.socketDir = some v → Utf8 v) ∧
  (∀ l, c.gidsEnforced = some l ∨ c.gidsExempted = some l → l ≠ [] ∧ ∀ n ∈ l, n < 2 ^ 32)

/-- The options meant, with the documented defaults (README) for those not given. -/
def Conf.meant (c : Conf) : PluginOptions where
  binaryPath     := c.binaryPath.getD (b! "/usr/bin/sudo_approve")
  userPromptPath := c.userPromptPath.getD (b! "/etc/sudo_pair.prompt.user")
  pairPromptPath := c.pairPromptPath.getD (b! "/etc/sudo_pair.prompt.pair")
  socketDir      := c.socketDir.getD (b! "/var/run/sudo_pair")
  gidsEnforced   := c.gidsEnforced.getD [0]
  gidsExempted   := c.gidsExempted.getD []

end SudoPair.Spec
