import Verif.Model.Os
import Verif.Model.OptionMap
/-
sudo_plugin/src/output/{print_facility,tty}.rs and the error types of both crates.
-/
namespace SudoPair

/-- `PrintFacility` (print_facility.rs:28-41).  `level` is the message type handed to sudo's printf
(sudo_plugin/src/output.rs:25-28). -/
structure PrintFacility where
  hasPrintf : Bool
  level     : Nat
  tag       : Bytes
  deriving DecidableEq, Repr

namespace PrintFacility

/-- `PrintFacility::new(Some("sudo_pair"), printf).0` (print_facility.rs:57-68). -/
def stdout (hasPrintf : Bool) : PrintFacility := ⟨hasPrintf, 4, b! "sudo_pair: "⟩

/-- `PrintFacility::new(Some("sudo_pair"), printf).1` (print_facility.rs:57-68). -/
def stderr (hasPrintf : Bool) : PrintFacility := ⟨hasPrintf, 3, b! "sudo_pair: "⟩

/-- `PrintFacility::write` (print_facility.rs:100-120): an error without a printf function and for
text containing a NUL byte; otherwise the text itself is the printf format string, and a
non-negative result is reported as the number of bytes written. -/
def write (pf : PrintFacility) (buf : Bytes) : M WriteRes :=
  if !pf.hasPrintf then pure .fail
  else if (0 : UInt8) ∈ buf then pure .fail
  else M.sys (.printf pf.level buf)

/-- `write_all` on a `PrintFacility`. -/
def writeAll (pf : PrintFacility) (buf : Bytes) : M Bool := SudoPair.writeAll pf.write buf

/-- `PrintFacility::write_line` (print_facility.rs:71-79). -/
def writeLine (pf : PrintFacility) (line : Bytes) : M Bool := do
  if ← pf.writeAll pf.tag then
    if ← pf.writeAll line then pf.writeAll (b! "\n") else pure false
  else pure false

/-- The `while let Some(error) = error.source()` loop (print_facility.rs:91-93), at most `fuel`
iterations.  `error` is shadowed inside the body only, so the loop condition always looks at the
outermost error. -/
def sourceLoop (pf : PrintFacility) (source : Option Bytes) : Nat → M Bool
  | 0        => M.killed
  | fuel + 1 => match source with
    | none   => pure true
    | some m => do
      if ← pf.writeLine m then sourceLoop pf source fuel else pure false

/-- `PrintFacility::write_error` (print_facility.rs:82-96) for an error displayed as `msg` whose
`source()` is displayed as `source`.  Every iteration of the loop performs a system call or ends
it, so the schedule length bounds the iterations. -/
def writeError (pf : PrintFacility) (msg : Bytes) (source : Option Bytes) : M Bool := do
  if ← pf.writeAll (b! "\n") then
    if ← pf.writeLine msg then fun s => sourceLoop pf source (s.length + 1) s
    else pure false
  else pure false

end PrintFacility

/-- `Display` for `sudo_plugin::errors::Error` (sudo_plugin/src/errors.rs:28-69); none of them has a
`source()`. -/
def PluginError.display : PluginError → Bytes
  | .unsupportedApiVersion major minor =>
    b! "sudo called plugin with an API version of " ++ decNat major ++ [46] ++ decNat minor ++
    b! ", but a minimum of 1.9 is required"
  | .optionMissing key =>
    b! "sudo called plugin without providing a value for " ++ key
  | .optionInvalid key value =>
    b! "sudo called plugin with an unparseable value for " ++ key ++ b! ": " ++ value

/-- `ErrorKind` of sudo_pair (sudo_pair/src/errors.rs:25-34), the variants that `SudoPair` itself
returns. -/
inductive ErrorKind where
  | communicationError
  | sessionDeclined
  | sessionTerminated
  | stdinRedirected
  | sudoToUserAndGroup
  deriving DecidableEq, Repr

/-- `Display` for `ErrorKind` (sudo_pair/src/errors.rs:36-54); `impl StdError for Error {}` (line 97)
leaves `source()` at `None`. -/
def ErrorKind.display : ErrorKind → Bytes
  | .communicationError => b! "couldn't establish communications with the pair"
  | .sessionDeclined    => b! "pair declined the session"
  | .sessionTerminated  => b! "pair ended the session"
  | .stdinRedirected    => b! "redirection of stdin to paired sessions is prohibited"
  | .sudoToUserAndGroup => b! "the -u and -g options may not both be specified"

end SudoPair
