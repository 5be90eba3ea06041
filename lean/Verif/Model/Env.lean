import Verif.Model.Options
import Verif.Model.Version
import Verif.Model.Path
/-
sudo_plugin/src/plugin/io_env.rs
-/
namespace SudoPair

/-- The arguments of the C `open` callback (sudo_plugin/src/core.rs:131-143).  Vectors are lists of
NUL-free strings, `none` is a NULL vector.  `argv` has `argc` entries (`argc` is not negative).
`hasPrintf` says whether the printf function pointer is non-NULL.  The conversation function and
`errstr` are ignored by the code. -/
structure OpenArgs where
  version       : BitVec 32
  hasPrintf     : Bool
  settings      : Option (List Bytes)
  userInfo      : Option (List Bytes)
  commandInfo   : Option (List Bytes)
  argv          : List Bytes
  userEnv       : Option (List Bytes)
  pluginOptions : Option (List Bytes)
  deriving DecidableEq, Repr

/-- `IoEnv` (io_env.rs:31-80).  Name and version of the plugin are constants. -/
structure IoEnv where
  apiVersion    : Version
  cmdline       : List Bytes
  settings      : Settings
  userInfo      : UserInfo
  commandInfo   : CommandInfo
  userEnv       : OptionMap
  pluginOptions : OptionMap
  hasPrintf     : Bool
  deriving DecidableEq, Repr

namespace IoEnv

/-- `Version::check` (sudo_plugin/src/version.rs:59-69). -/
def checkVersion (v : BitVec 32) : Except PluginError Version :=
  if (Version.fromFfi v).supported then .ok (Version.fromFfi v)
  else .error (.unsupportedApiVersion (Version.fromFfi v).major.toNat (Version.fromFfi v).minor.toNat)

/-- `IoEnv::new` (io_env.rs:103-156): version check, then `settings`, `user_info`, `command_info`, in
this order.  `none`: the code panicked. -/
def new (rt : Rt) (a : OpenArgs) : Option (Except PluginError IoEnv) :=
  match checkVersion a.version with
  | .error e => some (.error e)
  | .ok version =>
    match Settings.tryFrom rt.parseIp (.fromRaw a.settings) with
    | none => none
    | some (.error e) => some (.error e)
    | some (.ok settings) =>
      match UserInfo.tryFrom (.fromRaw a.userInfo) with
      | .error e => some (.error e)
      | .ok userInfo => some (.ok {
          apiVersion    := version
          cmdline       := a.argv
          settings      := settings
          userInfo      := userInfo
          commandInfo   := CommandInfo.tryFrom rt.euid rt.egid (.fromRaw a.commandInfo)
          userEnv       := .fromRaw a.userEnv
          pluginOptions := .fromRaw a.pluginOptions
          hasPrintf     := a.hasPrintf })

/-- `IoEnv::invocation` (io_env.rs:193-208). -/
def invocation (env : IoEnv) : Bytes :=
  let flags := env.settings.flags
  env.settings.progname ++
  (if flags = [] then [] else 32 :: joinWith 32 flags) ++
  env.cmdline.flatMap (fun entry => 32 :: entry)

/-- `IoEnv::cwd` (io_env.rs:217-221). -/
def cwd (env : IoEnv) : Bytes := env.commandInfo.cwd.getD env.userInfo.cwd

/-- `IoEnv::runas_gids` (io_env.rs:233-258).  The `HashSet` is modelled by a list used through
membership.  `none`: a `debug_assert!` failed. -/
def runasGids (debug : Bool) (env : IoEnv) : Option (List Nat) :=
  if debug && (env.commandInfo.preserveGroups == env.commandInfo.runasGroups.isSome) then none
  else some (env.commandInfo.runasEgid :: env.commandInfo.runasGroups.getD env.userInfo.groups)

end IoEnv
end SudoPair
