import Verif.Model.Pair
import Verif.Spec.Path
/-
When a session is exempt from pairing, according to the documentation (README "Exemptions" and
sudo_pair/src/lib.rs:402-455); stated on the data only.
-/
namespace SudoPair.Spec

/-- Group `g` is one of the groups the command will run with (io_env.rs:223-232): its effective gid, or
one of the supplementary groups: those listed by the policy, or the invoker's if it preserves them. -/
def RunsWith (env : IoEnv) (g : Nat) : Prop :=
  g = env.commandInfo.runasEgid ∨
  (∃ gs, env.commandInfo.runasGroups = some gs ∧ g ∈ gs) ∨
  (env.commandInfo.runasGroups = none ∧ g ∈ env.userInfo.groups)

/-- The user sudoes to themselves. -/
def Themselves (env : IoEnv) : Prop :=
  env.commandInfo.runasEuid = env.userInfo.uid ∧ env.commandInfo.runasEgid = env.userInfo.gid

/-- The policy asked for no output logging at all. -/
def Unlogged (env : IoEnv) : Prop :=
  env.commandInfo.iologTtyout = false ∧ env.commandInfo.iologStdout = false ∧
  env.commandInfo.iologStderr = false

/-- The session needs no pair. -/
def Exempt (env : IoEnv) (o : PluginOptions) : Prop :=
  env.userInfo.uid = env.userInfo.euid ∨
  Themselves env ∨
  SamePath env.commandInfo.command o.binaryPath ∨
  Unlogged env ∨
  (∃ g ∈ o.gidsExempted, g ∈ env.userInfo.groups) ∨
  (∀ g ∈ o.gidsEnforced, ¬ RunsWith env g)

/-- The consistency rules of sudo's plugin API that the debug assertions check: exactly one of
`preserve_groups` and `runas_groups`; and a user sudoing to themselves keeps their groups. -/
def Consistent (env : IoEnv) : Prop :=
  (env.commandInfo.preserveGroups = true ↔ env.commandInfo.runasGroups = none) ∧
  (Themselves env → ∀ g, RunsWith env g ↔ g ∈ env.userInfo.groups)

/-- Exactly one of `preserve_groups` and `runas_groups` is given. -/
def OneGroupSource (env : IoEnv) : Prop :=
  env.commandInfo.preserveGroups = true ↔ env.commandInfo.runasGroups = none

/-- A debug build stops at one of its assertions while it decides about the session: unless sudo is
called by root, the assertions are looked at when the user sudoes to themselves, or when all the other
reasons for an exemption have failed. -/
def Trips (env : IoEnv) (o : PluginOptions) : Prop :=
  env.userInfo.uid ≠ env.userInfo.euid ∧
  ((Themselves env ∧ ¬ (OneGroupSource env ∧ ∀ g, RunsWith env g ↔ g ∈ env.userInfo.groups)) ∨
   (¬ Themselves env ∧ ¬ SamePath env.commandInfo.command o.binaryPath ∧ ¬ Unlogged env ∧
     (¬ ∃ g ∈ o.gidsExempted, g ∈ env.userInfo.groups) ∧ ¬ OneGroupSource env))

end SudoPair.Spec
