import Verif.Model.Pair
import Verif.Spec.Text
import Verif.Spec.Path
/-
What each typed field of the environment means in terms of the vectors that sudo passes to `open`
(sudo_plugin(5), "user_info", "command_info", "settings").
-/
namespace SudoPair.Spec

/-- `user_info` (user_info.rs:25-95): the required keys are present, well-formed and denote the fields,
the optional ones are read with their documented defaults. -/
def UserInfoFrom (vec : Option (List Bytes)) (ui : UserInfo) : Prop :=
  Required vec (b! "cwd") DenotesS ui.cwd ∧
  Required vec (b! "egid") (DenotesU 32) ui.egid ∧
  Required vec (b! "euid") (DenotesU 32) ui.euid ∧
  Required vec (b! "gid") (DenotesU 32) ui.gid ∧
  Required vec (b! "groups") DenotesIds ui.groups ∧
  Required vec (b! "host") DenotesS ui.host ∧
  Required vec (b! "pgid") (DenotesI 32) ui.pgid ∧
  Required vec (b! "pid") (DenotesI 32) ui.pid ∧
  Required vec (b! "ppid") (DenotesI 32) ui.ppid ∧
  Required vec (b! "uid") (DenotesU 32) ui.uid ∧
  Required vec (b! "user") DenotesS ui.user ∧
  ReadsOpt vec (b! "umask") DenotesS ui.umask ∧
  ReadsOpt vec (b! "tty") DenotesS ui.tty ∧
  Reads vec (b! "cols") (DenotesU 64) 80 ui.cols ∧
  Reads vec (b! "lines") (DenotesU 64) 24 ui.lines ∧
  Reads vec (b! "sid") (DenotesI 32) 0 ui.sid ∧
  Reads vec (b! "tcpgid") (DenotesI 32) (-1) ui.tcpgid

/-- `command_info` (command_info.rs:28-236): every field is what its key denotes, or its documented
default; `euid` and `egid` are sudo's own. -/
def CommandInfoFrom (euid egid : Nat) (vec : Option (List Bytes)) (ci : CommandInfo) : Prop :=
  Reads vec (b! "command") DenotesS [] ci.command ∧
  Reads vec (b! "runas_gid") (DenotesU 32) egid ci.runasGid ∧
  Reads vec (b! "runas_uid") (DenotesU 32) euid ci.runasUid ∧
  Reads vec (b! "runas_egid") (DenotesU 32) ci.runasGid ci.runasEgid ∧
  Reads vec (b! "runas_euid") (DenotesU 32) ci.runasUid ci.runasEuid ∧
  Reads vec (b! "umask") (DenotesU 32) 0o7777 ci.umask ∧
  ReadsOpt vec (b! "chroot") DenotesS ci.chroot ∧
  ReadsOpt vec (b! "closefrom") (DenotesU 64) ci.closeFrom ∧
  ReadsOpt vec (b! "cwd") DenotesS ci.cwd ∧
  Reads vec (b! "exec_background") DenotesB false ci.execBackground ∧
  ReadsOpt vec (b! "execfd") (DenotesU 64) ci.execFd ∧
  Reads vec (b! "iolog_compress") DenotesB false ci.iologCompress ∧
  ReadsOpt vec (b! "iolog_group") DenotesS ci.iologGroup ∧
  ReadsOpt vec (b! "iolog_mode") DenotesS ci.iologMode ∧
  ReadsOpt vec (b! "iolog_path") DenotesS ci.iologPath ∧
  Reads vec (b! "iolog_stdin") DenotesB false ci.iologStdin ∧
  Reads vec (b! "iolog_stdout") DenotesB false ci.iologStdout ∧
  Reads vec (b! "iolog_stderr") DenotesB false ci.iologStderr ∧
  Reads vec (b! "iolog_ttyin") DenotesB false ci.iologTtyin ∧
  Reads vec (b! "iolog_ttyout") DenotesB false ci.iologTtyout ∧
  ReadsOpt vec (b! "iolog_user") DenotesS ci.iologUser ∧
  ReadsOpt vec (b! "login_class") DenotesS ci.loginClass ∧
  ReadsOpt vec (b! "nice") (DenotesU 64) ci.nice ∧
  Reads vec (b! "noexec") DenotesB false ci.noexec ∧
  Reads vec (b! "preserve_fds") (DenotesList 44 (DenotesI 32)) [] ci.preserveFds ∧
  Reads vec (b! "preserve_groups") DenotesB false ci.preserveGroups ∧
  ReadsOpt vec (b! "runas_groups") DenotesIds ci.runasGroups ∧
  ReadsOpt vec (b! "selinux_role") DenotesS ci.selinuxRole ∧
  ReadsOpt vec (b! "selinux_type") DenotesS ci.selinuxType ∧
  Reads vec (b! "set_utmp") DenotesB false ci.setUtmp ∧
  Reads vec (b! "sudoedit") DenotesB false ci.sudoedit ∧
  Reads vec (b! "sudoedit_checkdir") DenotesB true ci.sudoeditCheckdir ∧
  Reads vec (b! "sudoedit_follow") DenotesB false ci.sudoeditFollow ∧
  ReadsOpt vec (b! "timeout") (DenotesU 64) ci.timeout ∧
  ReadsOpt vec (b! "umask_override") DenotesB ci.umaskOverride ∧
  Reads vec (b! "use_pty") DenotesB false ci.usePty ∧
  ReadsOpt vec (b! "utmp_user") DenotesS ci.utmpUser

/-- The documented meaning of one element of `network_addrs`: `address/netmask`. -/
def DenotesNet (parseIp : Bytes → Option Bytes) (s : Bytes) (n : NetAddr) : Prop :=
  ∃ a m, s = a ++ 47 :: m ∧ (47 : UInt8) ∉ a ∧ parseIp a = some n.addr ∧ parseIp m = some n.mask

/-- `settings` (settings.rs:28-165). -/
def SettingsFrom (parseIp : Bytes → Option Bytes) (vec : Option (List Bytes)) (st : Settings) : Prop :=
  Required vec (b! "plugin_dir") DenotesS st.pluginDir ∧
  Required vec (b! "plugin_path") DenotesS st.pluginPath ∧
  Required vec (b! "progname") DenotesS st.progname ∧
  Reads vec (b! "network_addrs") (DenotesList 32 (DenotesNet parseIp)) [] st.networkAddrs ∧
  ReadsOpt vec (b! "bsd_auth_type") DenotesS st.bsdAuthType ∧
  ReadsOpt vec (b! "closefrom") (DenotesU 64) st.closeFrom ∧
  ReadsOpt vec (b! "debug_flags") DenotesS st.debugFlags ∧
  ReadsOpt vec (b! "debug_level") (DenotesU 64) st.debugLevel ∧
  Reads vec (b! "ignore_ticket") DenotesB false st.ignoreTicket ∧
  Reads vec (b! "implied_shell") DenotesB false st.impliedShell ∧
  ReadsOpt vec (b! "login_class") DenotesS st.loginClass ∧
  Reads vec (b! "login_shell") DenotesB false st.loginShell ∧
  ReadsOpt vec (b! "max_groups") (DenotesU 64) st.maxGroups ∧
  Reads vec (b! "noninteractive") DenotesB false st.noninteractive ∧
  Reads vec (b! "preserve_environment") DenotesB false st.preserveEnvironment ∧
  Reads vec (b! "preserve_groups") DenotesB false st.preserveGroups ∧
  ReadsOpt vec (b! "prompt") DenotesS st.prompt ∧
  ReadsOpt vec (b! "remote_host") DenotesS st.remoteHost ∧
  Reads vec (b! "run_shell") DenotesB false st.runShell ∧
  ReadsOpt vec (b! "runas_group") DenotesS st.runasGroup ∧
  ReadsOpt vec (b! "runas_user") DenotesS st.runasUser ∧
  ReadsOpt vec (b! "selinux_role") DenotesS st.selinuxRole ∧
  ReadsOpt vec (b! "selinux_type") DenotesS st.selinuxType ∧
  Reads vec (b! "set_home") DenotesB false st.setHome ∧
  Reads vec (b! "sudoedit") DenotesB false st.sudoedit ∧
  ReadsOpt vec (b! "timeout") DenotesS st.timeout

/-- The six options of the plugin and their documented defaults (README, lib.rs:676-722). -/
def PluginOptionsFrom (vec : Option (List Bytes)) (o : PluginOptions) : Prop :=
  Reads vec (b! "binary_path") DenotesS (b! "/usr/bin/sudo_approve") o.binaryPath ∧
  Reads vec (b! "user_prompt_path") DenotesS (b! "/etc/sudo_pair.prompt.user") o.userPromptPath ∧
  Reads vec (b! "pair_prompt_path") DenotesS (b! "/etc/sudo_pair.prompt.pair") o.pairPromptPath ∧
  Reads vec (b! "socket_dir") DenotesS (b! "/var/run/sudo_pair") o.socketDir ∧
  Reads vec (b! "gids_enforced") DenotesIds [0] o.gidsEnforced ∧
  Reads vec (b! "gids_exempted") DenotesIds [] o.gidsExempted

/-- The environment mirrors the arguments of `open`: API version, command line and the five vectors, each
in its own place. -/
def EnvFrom (rt : Rt) (a : OpenArgs) (env : IoEnv) : Prop :=
  env.apiVersion.major.toNat = a.version.toNat / 65536 ∧
  env.apiVersion.minor.toNat = a.version.toNat % 65536 ∧
  env.cmdline = a.argv ∧
  SettingsFrom rt.parseIp a.settings env.settings ∧
  UserInfoFrom a.userInfo env.userInfo ∧
  CommandInfoFrom rt.euid rt.egid a.commandInfo env.commandInfo ∧
  (∀ k v, env.userEnv.getBytes k = some v ↔ Value a.userEnv k v) ∧
  (∀ k v, env.pluginOptions.getBytes k = some v ↔ Value a.pluginOptions k v) ∧
  (env.hasPrintf = true ↔ a.hasPrintf = true)

/-- The directory the command is run in: the policy's choice, and otherwise the invoking user's. -/
def commandDir (env : IoEnv) : Bytes :=
  match env.commandInfo.cwd with
  | some d => d
  | none   => env.userInfo.cwd

/-- `name` is the last component of `path`: the path is a spelling of `name` itself or of `dir/name`, where
`name` is a proper file name. -/
def LastName (path name : Bytes) : Prop :=
  (47 : UInt8) ∉ name ∧ name ≠ [] ∧ name ≠ b! "." ∧ name ≠ b! ".." ∧
  (SamePath path name ∨ ∃ dir, SamePath path (dir ++ b! "/" ++ name))

end SudoPair.Spec
