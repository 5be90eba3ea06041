import Verif.Spec.Environment
/-
Which arguments of `open` are rejected, and what the user is told about them.
-/
namespace SudoPair.Spec

/-- Something sudo has to provide: in this vector, a value for this key, of this form. -/
structure Demand where
  vec : Option (List Bytes)
  key : Bytes
  wf  : Bytes → Prop

/-- The value is there, is text, and has the form. -/
def Demand.Met (d : Demand) : Prop := ∃ v, Value d.vec d.key v ∧ Utf8 v ∧ d.wf v

/-- What is said when it is not: a value that is not text counts as missing. -/
inductive Demand.Fault (d : Demand) : Bytes → Prop
  | missing : (¬ ∃ v, Value d.vec d.key v ∧ Utf8 v) →
      d.Fault (b! "sudo called plugin without providing a value for " ++ d.key)
  | unparseable {v} : Value d.vec d.key v → Utf8 v → ¬ d.wf v →
      d.Fault (b! "sudo called plugin with an unparseable value for " ++ d.key ++ b! ": " ++ v)

/-- The first demand that is not met has fault `msg`. -/
def FirstFault (ds : List Demand) (msg : Bytes) : Prop :=
  ∃ pre d post, ds = pre ++ d :: post ∧ (∀ p ∈ pre, p.Met) ∧ d.Fault msg

/-- Any text. -/
def anyText (_ : Bytes) : Prop := True
/-- An unsigned, a signed number of 32 bits; a list of ids. -/
def number (s : Bytes) : Prop := ∃ n, DenotesU 32 s n
def signed (s : Bytes) : Prop := ∃ i, DenotesI 32 s i
def ids (s : Bytes) : Prop := ∃ xs, DenotesIds s xs

/-- What `settings` and `user_info` have to contain, in the order in which it is looked for. -/
def settingsDemands (vec : Option (List Bytes)) : List Demand :=
  [⟨vec, b! "plugin_dir", anyText⟩, ⟨vec, b! "plugin_path", anyText⟩, ⟨vec, b! "progname", anyText⟩]

def userDemands (vec : Option (List Bytes)) : List Demand :=
  [⟨vec, b! "cwd", anyText⟩, ⟨vec, b! "egid", number⟩, ⟨vec, b! "euid", number⟩, ⟨vec, b! "gid", number⟩,
   ⟨vec, b! "groups", ids⟩, ⟨vec, b! "host", anyText⟩, ⟨vec, b! "pgid", signed⟩, ⟨vec, b! "pid", signed⟩,
   ⟨vec, b! "ppid", signed⟩, ⟨vec, b! "uid", number⟩, ⟨vec, b! "user", anyText⟩]

/-- `ps` are the pieces of `s` between the separators. -/
def Pieces (sep : UInt8) (s : Bytes) (ps : List Bytes) : Prop :=
  ∃ first rest, ps = first :: rest ∧ s = first ++ rest.flatMap (fun p => sep :: p) ∧ ∀ p ∈ ps, sep ∉ p

/-- `network_addrs` on which the conversion crashes: after well-formed elements comes an address without a
netmask. -/
def NetCrash (parseIp : Bytes → Option Bytes) (vec : Option (List Bytes)) : Prop :=
  ∃ v pre e post, Value vec (b! "network_addrs") v ∧ Utf8 v ∧ Pieces 32 v (pre ++ e :: post) ∧
    (∀ p ∈ pre, ∃ n, DenotesNet parseIp p n) ∧ (47 : UInt8) ∉ e ∧ parseIp e ≠ none

/-- API versions before 1.9 are not supported. -/
def TooOld (version : BitVec 32) : Prop := version.toNat < 1 * 65536 + 9

/-- The arguments are rejected with message `msg`. -/
def Complaint (rt : Rt) (a : OpenArgs) (msg : Bytes) : Prop :=
  (TooOld a.version ∧ msg = b! "sudo called plugin with an API version of " ++ decimal (a.version.toNat / 65536) ++
    b! "." ++ decimal (a.version.toNat % 65536) ++ b! ", but a minimum of 1.9 is required") ∨
  (¬ TooOld a.version ∧ FirstFault (settingsDemands a.settings) msg) ∨
  (¬ TooOld a.version ∧ (∀ d ∈ settingsDemands a.settings, d.Met) ∧ ¬ NetCrash rt.parseIp a.settings ∧
    FirstFault (userDemands a.userInfo) msg)

/-- The arguments crash the conversion. -/
def Crash (rt : Rt) (a : OpenArgs) : Prop :=
  ¬ TooOld a.version ∧ (∀ d ∈ settingsDemands a.settings, d.Met) ∧ NetCrash rt.parseIp a.settings

/-- The arguments are accepted. -/
def Accepted (rt : Rt) (a : OpenArgs) : Prop :=
  ¬ TooOld a.version ∧ (∀ d ∈ settingsDemands a.settings, d.Met) ∧ ¬ NetCrash rt.parseIp a.settings ∧
    ∀ d ∈ userDemands a.userInfo, d.Met

end SudoPair.Spec
