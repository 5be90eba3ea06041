import Verif.Model.Env
/-
Concrete environments used in examples (non-vacuity) and counterexamples.
-/
namespace SudoPair

/-- Minimal environment used in examples and counterexamples. -/
def sampleSettings : Settings :=
  { bsdAuthType := none, closeFrom := none, debugFlags := none, debugLevel := none
    ignoreTicket := false, impliedShell := false, loginClass := none, loginShell := false
    maxGroups := none, networkAddrs := [], noninteractive := false, pluginDir := b! "/p"
    pluginPath := b! "/p/sudo_pair.so", preserveEnvironment := false, preserveGroups := false
    progname := b! "sudo", prompt := none, remoteHost := none, runShell := false
    runasGroup := none, runasUser := none, selinuxRole := none, selinuxType := none
    setHome := false, sudoedit := false, timeout := none }

/-- A user (uid 1000, gid 1000, groups 1000 and 27) running as root (`sudo` with euid 0). -/
def sampleUserInfo : UserInfo :=
  { cols := 80, cwd := b! "/home/u", egid := 0, euid := 0, gid := 1000, groups := [1000, 27]
    host := b! "h", lines := 24, pgid := 41, pid := 42, ppid := 40, sid := 40, tcpgid := 41
    tty := some (b! "/dev/pts/0"), uid := 1000, umask := none, user := b! "u" }

/-- `/bin/ls` as root, all output logged. -/
def sampleCommandInfo : CommandInfo :=
  CommandInfo.tryFrom 0 0 (.fromRaw (some [b! "command=/bin/ls", b! "runas_uid=0", b! "runas_gid=0",
    b! "runas_groups=0", b! "iolog_stdout=true", b! "iolog_stderr=true", b! "iolog_ttyout=true",
    b! "iolog_ttyin=true", b! "iolog_stdin=true"]))

def sampleEnv : IoEnv :=
  { apiVersion := ⟨1#16, 17#16⟩, cmdline := [b! "ls", b! "-l"], settings := sampleSettings
    userInfo := sampleUserInfo, commandInfo := sampleCommandInfo, userEnv := .fromRaw none
    pluginOptions := .fromRaw none, hasPrintf := true }

end SudoPair
