import Verif.Spec.Session
import Verif.Spec.Text
/-
The part of sudoers(5) that the README (section `/etc/sudoers`) tells administrators to use for choosing the commands
that are paired, and what the policy plugin tells the other plugins about it (sudo_plugin(5), `iolog_*`).  This is sudo's
side, not code of /repo.  Hosts, run-as lists, aliases and wildcards are left out: the specifications of a `Sudoers` are those
for the host and the run-as user or group in question.
-/
namespace SudoPair.Spec

/-- A tag in front of a command. -/
inductive Tag where
  | logOutput | nologOutput | logInput | nologInput | other
  deriving DecidableEq

/-- Whom a specification is for. -/
inductive Who where
  | all | user (name : Bytes) | group (name : Bytes)
  deriving DecidableEq

/-- A command in a specification. -/
inductive Cmnd where
  | all | path (p : Bytes)
  deriving DecidableEq

/-- A command with the tags in front of it, possibly negated by `!`. -/
structure CmndSpec where
  tags : List Tag := []
  neg  : Bool := false
  cmnd : Cmnd

/-- A line `who hosts = (runas) tags: cmnd, tags: cmnd, …`. -/
structure UserSpec where
  who   : List Who
  cmnds : List CmndSpec

/-- The file: `Defaults log_output`, `Defaults log_input`, and the specifications in their order. -/
structure Sudoers where
  logOutput : Bool := false
  logInput  : Bool := false
  specs     : List UserSpec

/-- A user asks for a command. -/
structure Request where
  user    : Bytes
  groups  : List Bytes
  command : Bytes

/-- What tags say about logging; `none`: nothing. -/
structure Tags where
  output : Option Bool := none
  input  : Option Bool := none

/-- A tag overrides what the tags before it say about the same matter. -/
def Tags.add (t : Tags) : Tag → Tags
  | .logOutput   => { t with output := some true }
  | .nologOutput => { t with output := some false }
  | .logInput    => { t with input := some true }
  | .nologInput  => { t with input := some false }
  | .other       => t

/-- The commands of a specification with the tags in force for them: a command inherits the tags of the commands before it
unless it has the opposite tag. -/
def inForce (t : Tags) : List CmndSpec → List (Tags × CmndSpec)
  | []      => []
  | c :: cs => (c.tags.foldl Tags.add t, c) :: inForce (c.tags.foldl Tags.add t) cs

/-- The request is for this command. -/
def Cmnd.covers : Cmnd → Request → Bool
  | .all,    _ => true
  | .path p, r => r.command == p

/-- The request comes from one of these. -/
def Who.covers : Who → Request → Bool
  | .all,     _ => true
  | .user n,  r => r.user == n
  | .group n, r => r.groups.contains n

/-- The matching commands of a specification. -/
def UserSpec.found (u : UserSpec) (r : Request) : List (Tags × CmndSpec) :=
  if u.who.any (·.covers r) then (inForce {} u.cmnds).filter (·.2.cmnd.covers r) else []

/-- Whether output and input are to be logged. -/
structure Logging where
  output : Bool
  input  : Bool
  deriving DecidableEq

/-- The last match decides; `none`: the request is not allowed.  What the tags do not say is as the `Defaults` say. -/
def Sudoers.logging (s : Sudoers) (r : Request) : Option Logging :=
  match (s.specs.flatMap (·.found r)).getLast? with
  | none        => none
  | some (t, c) => if c.neg then none else some ⟨t.output.getD s.logOutput, t.input.getD s.logInput⟩

/-- A tag occurs in the specification. -/
def UserSpec.Has (u : UserSpec) (t : Tag) : Prop := ∃ c ∈ u.cmnds, t ∈ c.tags

/-- Key `k` is there with the value `true` if `b`, and is not there otherwise. -/
def Told (vec : Option (List Bytes)) (k : Bytes) (b : Bool) : Prop := ∀ v, Value vec k v ↔ b = true ∧ v = b! "true"

/-- What the policy plugin tells about logging in `command_info`. -/
def Logging.ToldIn (l : Logging) (vec : Option (List Bytes)) : Prop :=
  Told vec (b! "iolog_stdout") l.output ∧ Told vec (b! "iolog_stderr") l.output ∧ Told vec (b! "iolog_ttyout") l.output ∧
  Told vec (b! "iolog_stdin") l.input ∧ Told vec (b! "iolog_ttyin") l.input

/-- The reasons for an exemption (README, lib.rs:402-460) that have nothing to do with sudoers. -/
def ExemptAnyway (env : IoEnv) (o : PluginOptions) : Prop :=
  env.userInfo.uid = env.userInfo.euid ∨
  Themselves env ∨
  SamePath env.commandInfo.command o.binaryPath ∨
  (∃ g ∈ o.gidsExempted, g ∈ env.userInfo.groups) ∨
  (∀ g ∈ o.gidsEnforced, ¬ RunsWith env g)

end SudoPair.Spec
