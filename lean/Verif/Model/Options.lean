import Verif.Model.OptionMap
import Verif.Model.Os
/-
The typed option sets: sudo_plugin/src/options/{user_info,command_info,settings}.rs.
`uid_t`, `gid_t`, `mode_t` are `u32` and are modelled by the natural numbers that `parseUInt 32`
yields (always < 2^32); `pid_t` and `RawFd` are `i32`, modelled by `Int`.
The `raw` field of each struct (the untyped map itself) is dropped.
-/
namespace SudoPair

/-- `u32` option value. -/
abbrev u32 : Bytes → Option Nat := parseUInt 32
/-- `u64` option value. -/
abbrev u64 : Bytes → Option Nat := parseUInt 64
/-- `i32` option value. -/
abbrev i32 : Bytes → Option Int := parseInt 32

/-- `UserInfo` (user_info.rs:25-95). -/
structure UserInfo where
  cols   : Nat
  cwd    : Bytes
  egid   : Nat
  euid   : Nat
  gid    : Nat
  groups : List Nat
  host   : Bytes
  lines  : Nat
  pgid   : Int
  pid    : Int
  ppid   : Int
  sid    : Int
  tcpgid : Int
  tty    : Option Bytes
  uid    : Nat
  umask  : Option Bytes
  user   : Bytes
  deriving DecidableEq, Repr

/-- `TryFrom<OptionMap> for UserInfo` (user_info.rs:97-124). -/
def UserInfo.tryFrom (m : OptionMap) : Except PluginError UserInfo := do
  let cwd    ← m.get parseStr (b! "cwd")
  let egid   ← m.get u32 (b! "egid")
  let euid   ← m.get u32 (b! "euid")
  let gid    ← m.get u32 (b! "gid")
  let groups ← m.get (parseList u32) (b! "groups")
  let host   ← m.get parseStr (b! "host")
  let pgid   ← m.get i32 (b! "pgid")
  let pid    ← m.get i32 (b! "pid")
  let ppid   ← m.get i32 (b! "ppid")
  let uid    ← m.get u32 (b! "uid")
  let user   ← m.get parseStr (b! "user")
  pure {
    cwd, egid, euid, gid, groups, host, pgid, pid, ppid, uid, user
    umask  := m.get? parseStr (b! "umask")
    cols   := m.getD u64 (b! "cols") 80
    lines  := m.getD u64 (b! "lines") 24
    sid    := m.getD i32 (b! "sid") 0
    tcpgid := m.getD i32 (b! "tcpgid") (-1)
    tty    := m.get? parseStr (b! "tty")
  }

/-- `CommandInfo` (command_info.rs:28-236). -/
structure CommandInfo where
  chroot           : Option Bytes
  closeFrom        : Option Nat
  command          : Bytes
  cwd              : Option Bytes
  execBackground   : Bool
  execFd           : Option Nat
  iologCompress    : Bool
  iologGroup       : Option Bytes
  iologMode        : Option Bytes
  iologPath        : Option Bytes
  iologStdin       : Bool
  iologStdout      : Bool
  iologStderr      : Bool
  iologTtyin       : Bool
  iologTtyout      : Bool
  iologUser        : Option Bytes
  loginClass       : Option Bytes
  nice             : Option Nat
  noexec           : Bool
  preserveFds      : List Int
  preserveGroups   : Bool
  runasEgid        : Nat
  runasEuid        : Nat
  runasGid         : Nat
  runasGroups      : Option (List Nat)
  runasUid         : Nat
  selinuxRole      : Option Bytes
  selinuxType      : Option Bytes
  setUtmp          : Bool
  sudoedit         : Bool
  sudoeditCheckdir : Bool
  sudoeditFollow   : Bool
  timeout          : Option Nat
  umask            : Nat
  umaskOverride    : Option Bool
  usePty           : Bool
  utmpUser         : Option Bytes
  deriving DecidableEq, Repr

/-- `TryFrom<OptionMap> for CommandInfo` (command_info.rs:238-293); it never fails.  `euid`/`egid` are
what `geteuid(2)`/`getegid(2)` return. -/
def CommandInfo.tryFrom (euid egid : Nat) (m : OptionMap) : CommandInfo :=
  let runasGid := m.getD u32 (b! "runas_gid") egid
  let runasUid := m.getD u32 (b! "runas_uid") euid
  {
    command          := m.getD parseStr (b! "command") []
    runasGid, runasUid
    runasEgid        := m.getD u32 (b! "runas_egid") runasGid
    runasEuid        := m.getD u32 (b! "runas_euid") runasUid
    umask            := m.getD u32 (b! "umask") 0o7777
    chroot           := m.get? parseStr (b! "chroot")
    closeFrom        := m.get? u64 (b! "closefrom")
    cwd              := m.get? parseStr (b! "cwd")
    execBackground   := m.getD parseBool (b! "exec_background") false
    execFd           := m.get? u64 (b! "execfd")
    iologCompress    := m.getD parseBool (b! "iolog_compress") false
    iologGroup       := m.get? parseStr (b! "iolog_group")
    iologMode        := m.get? parseStr (b! "iolog_mode")
    iologPath        := m.get? parseStr (b! "iolog_path")
    iologStdin       := m.getD parseBool (b! "iolog_stdin") false
    iologStdout      := m.getD parseBool (b! "iolog_stdout") false
    iologStderr      := m.getD parseBool (b! "iolog_stderr") false
    iologTtyin       := m.getD parseBool (b! "iolog_ttyin") false
    iologTtyout      := m.getD parseBool (b! "iolog_ttyout") false
    iologUser        := m.get? parseStr (b! "iolog_user")
    loginClass       := m.get? parseStr (b! "login_class")
    nice             := m.get? u64 (b! "nice")
    noexec           := m.getD parseBool (b! "noexec") false
    preserveFds      := m.getD (parseList i32) (b! "preserve_fds") []
    preserveGroups   := m.getD parseBool (b! "preserve_groups") false
    runasGroups      := m.get? (parseList u32) (b! "runas_groups")
    selinuxRole      := m.get? parseStr (b! "selinux_role")
    selinuxType      := m.get? parseStr (b! "selinux_type")
    setUtmp          := m.getD parseBool (b! "set_utmp") false
    sudoedit         := m.getD parseBool (b! "sudoedit") false
    sudoeditCheckdir := m.getD parseBool (b! "sudoedit_checkdir") true
    sudoeditFollow   := m.getD parseBool (b! "sudoedit_follow") false
    timeout          := m.get? u64 (b! "timeout")
    umaskOverride    := m.get? parseBool (b! "umask_override")
    usePty           := m.getD parseBool (b! "use_pty") false
    utmpUser         := m.get? parseStr (b! "utmp_user")
  }

/-- `Settings` (settings.rs:28-165). -/
structure Settings where
  bsdAuthType         : Option Bytes
  closeFrom           : Option Nat
  debugFlags          : Option Bytes
  debugLevel          : Option Nat
  ignoreTicket        : Bool
  impliedShell        : Bool
  loginClass          : Option Bytes
  loginShell          : Bool
  maxGroups           : Option Nat
  networkAddrs        : List NetAddr
  noninteractive      : Bool
  pluginDir           : Bytes
  pluginPath          : Bytes
  preserveEnvironment : Bool
  preserveGroups      : Bool
  progname            : Bytes
  prompt              : Option Bytes
  remoteHost          : Option Bytes
  runShell            : Bool
  runasGroup          : Option Bytes
  runasUser           : Option Bytes
  selinuxRole         : Option Bytes
  selinuxType         : Option Bytes
  setHome             : Bool
  sudoedit            : Bool
  timeout             : Option Bytes
  deriving DecidableEq, Repr

/-- `value.get("network_addrs").unwrap_or_else(|_| vec![])` (settings.rs:291): `none` if parsing
panics. -/
def getNetAddrs (parseIp : Bytes → Option Bytes) (m : OptionMap) : Option (List NetAddr) :=
  match m.getStr (b! "network_addrs") with
  | none   => some []
  | some v => match parseNetAddrs parseIp v with
    | .ok l  => some l
    | .err   => some []
    | .panic => none

/-- `TryFrom<OptionMap> for Settings` (settings.rs:273-309).  Fields are evaluated in source order:
the three required ones first; the outer `Option` is `none` if parsing `network_addrs` panics. -/
def Settings.tryFrom (parseIp : Bytes → Option Bytes) (m : OptionMap) :
    Option (Except PluginError Settings) :=
  let required : Except PluginError (Bytes × Bytes × Bytes) := do
    let pluginDir  ← m.get parseStr (b! "plugin_dir")
    let pluginPath ← m.get parseStr (b! "plugin_path")
    let progname   ← m.get parseStr (b! "progname")
    pure (pluginDir, pluginPath, progname)
  match required with
  | .error e => some (.error e)
  | .ok (pluginDir, pluginPath, progname) =>
    match getNetAddrs parseIp m with
    | none => none
    | some networkAddrs => some (.ok {
      pluginDir, pluginPath, progname, networkAddrs
      bsdAuthType         := m.get? parseStr (b! "bsd_auth_type")
      closeFrom           := m.get? u64 (b! "closefrom")
      debugFlags          := m.get? parseStr (b! "debug_flags")
      debugLevel          := m.get? u64 (b! "debug_level")
      ignoreTicket        := m.getD parseBool (b! "ignore_ticket") false
      impliedShell        := m.getD parseBool (b! "implied_shell") false
      loginClass          := m.get? parseStr (b! "login_class")
      loginShell          := m.getD parseBool (b! "login_shell") false
      maxGroups           := m.get? u64 (b! "max_groups")
      noninteractive      := m.getD parseBool (b! "noninteractive") false
      preserveEnvironment := m.getD parseBool (b! "preserve_environment") false
      preserveGroups      := m.getD parseBool (b! "preserve_groups") false
      prompt              := m.get? parseStr (b! "prompt")
      remoteHost          := m.get? parseStr (b! "remote_host")
      runShell            := m.getD parseBool (b! "run_shell") false
      runasGroup          := m.get? parseStr (b! "runas_group")
      runasUser           := m.get? parseStr (b! "runas_user")
      selinuxRole         := m.get? parseStr (b! "selinux_role")
      selinuxType         := m.get? parseStr (b! "selinux_type")
      setHome             := m.getD parseBool (b! "set_home") false
      sudoedit            := m.getD parseBool (b! "sudoedit") false
      timeout             := m.get? parseStr (b! "timeout")
    })

namespace Settings

/-- `if let Some(ref v) = opt { flag = prefix ++ v; push }` (settings.rs:185-267). -/
def optFlag (pre : Bytes) : Option Bytes → List Bytes
  | none   => []
  | some v => [pre ++ v]

/-- `if cond { push(flag) }` (settings.rs:206-232). -/
def boolFlag (flag : Bytes) (b : Bool) : List Bytes := if b then [flag] else []

/-- `Settings::flags` (settings.rs:174-270). -/
def flags (s : Settings) : List Bytes :=
  boolFlag (b! "--edit") (s.sudoedit && s.progname ≠ b! "sudoedit") ++
  optFlag (b! "--user ") s.runasUser ++
  optFlag (b! "--group ") s.runasGroup ++
  optFlag (b! "--prompt ") s.prompt ++
  boolFlag (b! "--login") s.loginShell ++
  boolFlag (b! "--shell") s.runShell ++
  boolFlag (b! "--set-home") s.setHome ++
  boolFlag (b! "--preserve-env") s.preserveEnvironment ++
  boolFlag (b! "--preserve-groups") s.preserveGroups ++
  boolFlag (b! "--reset-timestamp") s.ignoreTicket ++
  boolFlag (b! "--non-interactive") s.noninteractive ++
  optFlag (b! "--login-class ") s.loginClass ++
  optFlag (b! "--role ") s.selinuxRole ++
  optFlag (b! "--type ") s.selinuxType ++
  optFlag (b! "--auth-type ") s.bsdAuthType ++
  optFlag (b! "--close-from ") (s.closeFrom.map decNat)

end Settings
end SudoPair
