import Verif.Model.Pair
/-
`make install` (sample/Makefile:9-35): what is put where, with which permissions, and the line for sudo.conf.
Simplified: the directories that files are put into exist (`install FILE DIRECTORY` puts the file under its own name).
The rule that compiles the plugin (Makefile:37-40) is not modelled.  At the end, the contents of the packages and
what the README has one install.
-/
namespace SudoPair.Install

/-- The variables that may be set on the command line of make (Makefile:9-15), and `DESTDIR`. -/
structure Vars where
  pfx           : Option Bytes := none
  execPrefix    : Option Bytes := none
  bindir        : Option Bytes := none
  libdir        : Option Bytes := none
  sysconfdir    : Option Bytes := none
  localstatedir : Option Bytes := none
  runstatedir   : Option Bytes := none
  destdir       : Bytes := []

namespace Vars
variable (v : Vars)

/-- Makefile:9. -/
def pfx' : Bytes := v.pfx.getD (b! "/usr/local")
/-- Makefile:10. -/
def execPrefix' : Bytes := v.execPrefix.getD v.pfx'
/-- Makefile:11. -/
def bindir' : Bytes := v.bindir.getD (v.execPrefix' ++ b! "/bin")
/-- Makefile:12. -/
def libdir' : Bytes := v.libdir.getD (v.execPrefix' ++ b! "/lib")
/-- Makefile:13. -/
def sysconfdir' : Bytes := v.sysconfdir.getD (v.pfx' ++ b! "/etc")
/-- Makefile:14. -/
def localstatedir' : Bytes := v.localstatedir.getD (v.pfx' ++ b! "/var")
/-- Makefile:15. -/
def runstatedir' : Bytes := v.runstatedir.getD (v.localstatedir' ++ b! "/run")

end Vars

/-- What is installed. -/
inductive Thing where
  | socketDir | script | library | pairPrompt | userPrompt | sudoers
  deriving DecidableEq, Repr

/-- A call of `install(1)`: the thing, its place and its mode. -/
structure Placed where
  thing : Thing
  path  : Bytes
  mode  : Nat
  deriving DecidableEq, Repr

/-- The recipe of the target `install` (Makefile:27-33).  `INSTALL_PROGRAM` is `install`, which sets the mode 755;
`INSTALL_DATA` sets 644, for the directory as well (Makefile:5-7). -/
def recipe (v : Vars) : List Placed :=
  [⟨.socketDir,  v.destdir ++ v.runstatedir' ++ b! "/sudo_pair", 0o644⟩,
   ⟨.script,     v.destdir ++ v.bindir' ++ b! "/sudo_approve", 0o755⟩,
   ⟨.library,    v.destdir ++ v.libdir' ++ b! "/sudo/sudo_pair.so", 0o644⟩,
   ⟨.pairPrompt, v.destdir ++ v.sysconfdir' ++ b! "/sudo_pair.prompt.pair", 0o644⟩,
   ⟨.userPrompt, v.destdir ++ v.sysconfdir' ++ b! "/sudo_pair.prompt.user", 0o644⟩,
   ⟨.sudoers,    v.destdir ++ v.sysconfdir' ++ b! "/sudoers.d/sudo_pair", 0o440⟩]

/-- The line appended to sudo.conf (Makefile:35), for the gid of the group `nogroup` as getent(1) tells it. -/
def confLine (nogroup : Bytes) : Bytes := b! "Plugin sudo_pair sudo_pair.so gids_enforced=" ++ nogroup

/-- The options that sudo takes from such a line: the words after the name of the plugin and its library
(sample/etc/sudo.conf:1-9). -/
def confOptions (line : Bytes) : List Bytes := (splitOn 32 line).drop 3

/-- What the Debian package installs (contrib/make_deb_pkg.sh:22-39), with the permissions that its script sets
afterwards (contrib/DEBIAN/postinst:6-22).  `prompts` tells whether the sources of the prompts (lines 38-39) exist; in
the repository they do not, and the script goes on when `cp` fails.  There is no file for sudoers. -/
def debian (prompts : Bool) : List Placed :=
  [⟨.library,   b! "/usr/lib/sudo/libsudo_pair.so", 0o755⟩,
   ⟨.socketDir, b! "/var/run/sudo_pair", 0o755⟩,
   ⟨.script,    b! "/usr/bin/sudo_approve", 0o755⟩] ++
  if prompts then
    [⟨.userPrompt, b! "/etc/sudo.prompt.user", 0o644⟩, ⟨.pairPrompt, b! "/etc/sudo.prompt.pair", 0o644⟩]
  else []

/-- What the commands of the README install (sudo_pair/README.md:55-73); `prompts` as for `debian`, for the sources that
lines 72-73 name.  The sample sudo.conf goes to its place (line 68). -/
def readme (prompts : Bool) : List Placed :=
  [⟨.library,   b! "/usr/libexec/sudo/libsudopair.dylib", 0o644⟩,
   ⟨.socketDir, b! "/var/run/sudo_pair", 0o644⟩,
   ⟨.script,    b! "/usr/bin/sudo_approve", 0o755⟩] ++
  if prompts then
    [⟨.userPrompt, b! "/etc/sudo.prompt.user", 0o644⟩, ⟨.pairPrompt, b! "/etc/sudo.prompt.pair", 0o644⟩]
  else []

/-- What the RPM package installs but for documentation, to which the script and the prompts belong
(contrib/sudo_pair.spec:30-47).  The mode is that of a compiled library, which `cp` keeps. -/
def rpm : List Placed := [⟨.library, b! "/usr/libexec/sudo/libsudo_pair.so", 0o755⟩]

/-- The line of the sample sudo.conf, which the package brings under another name (sample/etc/sudo.conf:11,
make_deb_pkg.sh:35); the README has it copied (README.md:68). -/
def sampleLine : Bytes := b! "Plugin sudo_pair sudo_pair.so gids_enforced="

end SudoPair.Install
