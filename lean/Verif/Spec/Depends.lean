import Verif.Spec.Text
/-
What of sudo's input the plugin takes notice of: the keys of the four vectors that have an influence on what it does.
All other keys, and the environment of the invoking user, have none.
-/
namespace SudoPair.Spec

/-- `settings`. -/
def settingsKeys : List Bytes :=
  [b! "plugin_dir", b! "plugin_path", b! "progname", b! "network_addrs", b! "runas_group", b! "sudoedit",
    b! "runas_user", b! "prompt", b! "login_shell", b! "run_shell", b! "set_home", b! "preserve_environment",
    b! "preserve_groups", b! "ignore_ticket", b! "noninteractive", b! "login_class", b! "selinux_role",
    b! "selinux_type", b! "bsd_auth_type", b! "closefrom"]

/-- `user_info`. -/
def userKeys : List Bytes :=
  [b! "cwd", b! "egid", b! "euid", b! "gid", b! "groups", b! "host", b! "pgid", b! "pid", b! "ppid", b! "uid",
    b! "user", b! "cols", b! "lines", b! "tty"]

/-- `command_info`; one of them only in debug builds. -/
def commandKeys (debug : Bool) : List Bytes :=
  [b! "command", b! "runas_uid", b! "runas_gid", b! "runas_euid", b! "runas_egid", b! "runas_groups", b! "cwd",
    b! "iolog_stdin", b! "iolog_stdout", b! "iolog_stderr", b! "iolog_ttyout"] ++
  if debug then [b! "preserve_groups"] else []

/-- The options of the plugin. -/
def optionKeys : List Bytes :=
  [b! "binary_path", b! "user_prompt_path", b! "pair_prompt_path", b! "socket_dir", b! "gids_enforced",
    b! "gids_exempted"]

/-- Two vectors have the same values for the given keys. -/
def Agree (keys : List Bytes) (vec vec' : Option (List Bytes)) : Prop :=
  ∀ k ∈ keys, ∀ v, Value vec k v ↔ Value vec' k v

end SudoPair.Spec
