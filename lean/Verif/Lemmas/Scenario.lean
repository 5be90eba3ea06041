import Verif.Model.Core
import Verif.Lemmas.Samples
/-
Concrete callback arguments and operating-system answers, used in examples (non-vacuity) and
counterexamples.
-/
namespace SudoPair

/-- A root process on a release build. -/
def sampleRt : Rt := ⟨0, 0, false, fun _ => none, 1024, .info⟩

/-- User `u` (uid 1000) runs `/bin/ls -l` as root. -/
def sampleArgs : OpenArgs where
  version       := 0x10011#32
  hasPrintf     := true
  settings      := some [b! "plugin_dir=/p", b! "plugin_path=/p/sudo_pair.so", b! "progname=sudo"]
  userInfo      := some [b! "cwd=/home/u", b! "egid=0", b! "euid=0", b! "gid=1000", b! "groups=1000,27",
    b! "host=h", b! "pgid=41", b! "pid=42", b! "ppid=40", b! "uid=1000", b! "user=u",
    b! "tty=/dev/pts/0"]
  commandInfo   := some [b! "command=/bin/ls", b! "runas_uid=0", b! "runas_gid=0",
    b! "runas_groups=0", b! "iolog_stdout=true", b! "iolog_stderr=true", b! "iolog_ttyout=true",
    b! "iolog_ttyin=true", b! "iolog_stdin=true"]
  argv          := [b! "ls", b! "-l"]
  userEnv       := some []
  pluginOptions := none

/-- An operating system on which everything works and a pair who answers `reply`. -/
def coop (reply : UInt8) : Answer
  | .readFile _    => none
  | .ttyOpen _     => true
  | .ttyWrite b    => .wrote b.length
  | .printf _ b    => .wrote b.length
  | .stat _        => some ⟨0o040755, 0⟩
  | .metadata _    => none
  | .removeFile _  => true
  | .umask _       => (0o22 : Nat)
  | .bind _        => .bound 7
  | .chown _ _ _   => true
  | .chmod _ _     => true
  | .select _      => ((1, true) : Int × Bool)
  | .accept _      => some ⟨8, ⟨0, [0]⟩⟩
  | .sockWrite _ b => .wrote b.length
  | .sockRead _ n  => .data ([reply].take n) (by simp; omega)
  | .shutdown _    => true
  | .sigGet        => some ⟨1, 0x10000000#32, 0⟩
  | .sigSet _      => true

/-- The return value of a run that returned one. -/
def retOf {α : Type} : Out (Int × α) → Option Int
  | .ok (r, _) => some r
  | _ => none

/-- The return values of a sequence of callbacks that all returned. -/
def retsOf {α : Type} : Out (List Int × α) → Option (List Int)
  | .ok (rs, _) => some rs
  | _ => none

/-- Whether a run ended in a panic. -/
def panics {α : Type} : Out α → Bool
  | .panic => true
  | _ => false

end SudoPair
