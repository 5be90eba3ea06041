import Verif.Model.Env
import Verif.Model.Print
import Verif.Model.Socket
import Verif.Model.Template
/-
sudo_pair/src/lib.rs
-/
namespace SudoPair

/-- `PluginOptions` (lib.rs:676-722).  Gid sets are lists used through membership. -/
structure PluginOptions where
  binaryPath     : Bytes
  userPromptPath : Bytes
  pairPromptPath : Bytes
  socketDir      : Bytes
  gidsEnforced   : List Nat
  gidsExempted   : List Nat
  deriving DecidableEq, Repr

namespace PluginOptions

/-- `From<&OptionMap> for PluginOptions` (lib.rs:735-757), defaults lib.rs:90-94. -/
def ofMap (m : OptionMap) : PluginOptions where
  binaryPath     := m.getD parseStr (b! "binary_path") (b! "/usr/bin/sudo_approve")
  userPromptPath := m.getD parseStr (b! "user_prompt_path") (b! "/etc/sudo_pair.prompt.user")
  pairPromptPath := m.getD parseStr (b! "pair_prompt_path") (b! "/etc/sudo_pair.prompt.pair")
  socketDir      := m.getD parseStr (b! "socket_dir") (b! "/var/run/sudo_pair")
  gidsEnforced   := m.getD (parseList u32) (b! "gids_enforced") [0]
  gidsExempted   := m.getD (parseList u32) (b! "gids_exempted") []

/-- `PluginOptions::binary_name` (lib.rs:725-729). -/
def binaryName (o : PluginOptions) : Bytes := (Path.fileName o.binaryPath).getD o.binaryPath

end PluginOptions

/-- `DEFAULT_USER_PROMPT` (lib.rs:96). -/
def defaultUserPrompt : Bytes := b! "%B %u %p\n"
/-- `DEFAULT_PAIR_PROMPT` (lib.rs:97). -/
def defaultPairPrompt : Bytes := b! "%U@%h:%d$ %C\ny/n? [n]: "

/-- `SudoPair` (lib.rs:101-107); the socket is its file descriptor.  The logger is not modelled. -/
structure Pair where
  env     : IoEnv
  options : PluginOptions
  socket  : Option Nat
  deriving DecidableEq, Repr

/-- The value of a computation that may panic. -/
def M.ofOption {α : Type} : Option α → M α
  | some a => pure a
  | none   => M.panic

namespace Pair

/-- `HashSet::is_disjoint`. -/
def disjoint (xs ys : List Nat) : Bool := xs.all (fun x => !ys.contains x)

/-- Equality of the `HashSet`s collected from two lists. -/
def setEq (xs ys : List Nat) : Bool := xs.all ys.contains && ys.all xs.contains

/-- `is_sudoing_from_root` (lib.rs:462-472). -/
def fromRoot (p : Pair) : Bool := p.env.userInfo.uid = p.env.userInfo.euid

/-- `is_sudoing_to_user` (lib.rs:539-544). -/
def toUser (p : Pair) : Bool := p.env.userInfo.uid ≠ p.env.commandInfo.runasEuid

/-- `is_sudoing_to_group` (lib.rs:546-548). -/
def toGroup (p : Pair) : Bool := p.env.userInfo.gid ≠ p.env.commandInfo.runasEgid

/-- `is_sudoing_to_explicit_group` (lib.rs:550-553). -/
def toExplicitGroup (p : Pair) : Bool := p.env.settings.runasGroup.isSome

/-- `is_sudoing_to_themselves` (lib.rs:474-487).  `none`: the `debug_assert_eq!` failed, or one inside
`runas_gids`. -/
def toThemselves (debug : Bool) (p : Pair) : Option Bool :=
  if !p.toUser && !p.toGroup then
    if debug then
      match p.env.runasGids debug with
      | none      => none
      | some gids => if setEq gids p.env.userInfo.groups then some true else none
    else some true
  else some false

/-- `is_sudoing_approval_command` (lib.rs:489-491). -/
def approvalCommand (p : Pair) : Bool := Path.eq p.env.commandInfo.command p.options.binaryPath

/-- `is_exempted_from_logging` (lib.rs:497-507). -/
def exemptedFromLogging (p : Pair) : Bool :=
  !p.env.commandInfo.iologTtyout && !p.env.commandInfo.iologStdout && !p.env.commandInfo.iologStderr

/-- `is_sudoing_to_user_and_group` (lib.rs:509-525). -/
def toUserAndGroup (p : Pair) : Bool := p.toUser && p.toExplicitGroup

/-- `is_sudoing_from_exempted_gid` (lib.rs:527-531). -/
def fromExemptedGid (p : Pair) : Bool := !disjoint p.options.gidsExempted p.env.userInfo.groups

/-- `is_sudoing_to_enforced_gid` (lib.rs:533-537). -/
def toEnforcedGid (debug : Bool) (p : Pair) : Option Bool :=
  match p.env.runasGids debug with
  | none      => none
  | some gids => some (!disjoint p.options.gidsEnforced gids)

/-- `is_exempt` (lib.rs:402-460).  `none`: a debug assertion failed. -/
def isExempt (debug : Bool) (p : Pair) : Option Bool :=
  if p.fromRoot then some true
  else match p.toThemselves debug with
    | none       => none
    | some true  => some true
    | some false =>
      if p.approvalCommand then some true
      else if p.exemptedFromLogging then some true
      else if p.fromExemptedGid then some true
      else match p.toEnforcedGid debug with
        | none       => none
        | some false => some true
        | some true  => some false

/-- `socket_path` (lib.rs:555-570). -/
def socketPath (p : Pair) : Bytes :=
  Path.join p.options.socketDir
    (decNat p.env.userInfo.uid ++ [46] ++ decInt p.env.userInfo.pid ++ b! ".sock")

/-- `socket_uid` (lib.rs:572-585); `uid_t::max_value()` means "leave unchanged". -/
def socketUid (p : Pair) : Nat := if p.toUser then p.env.commandInfo.runasEuid else 4294967295

/-- `socket_gid` (lib.rs:587-598). -/
def socketGid (p : Pair) : Nat := if p.toExplicitGroup then p.env.commandInfo.runasEgid else 4294967295

/-- `socket_mode` (lib.rs:600-624).  `none`: `unreachable!`. -/
def socketMode (p : Pair) : Option Nat :=
  if p.toUser then some Socket.S_IWUSR
  else if p.toExplicitGroup then some Socket.S_IWGRP
  else none

/-- `template_spec` (lib.rs:626-666). -/
def templateSpec (p : Pair) : TemplateSpec :=
  (TemplateSpec.withEscape 37)
    |>.replace 98 p.options.binaryName              -- b
    |>.replace 66 p.options.binaryPath              -- B
    |>.replace 67 p.env.invocation                  -- C
    |>.replace 100 p.env.cwd                        -- d
    |>.replace 104 p.env.userInfo.host              -- h
    |>.replace 72 (decNat p.env.userInfo.lines)     -- H
    |>.replace 103 (decNat p.env.userInfo.gid)      -- g
    |>.replace 112 (decInt p.env.userInfo.pid)      -- p
    |>.replace 117 (decNat p.env.userInfo.uid)      -- u
    |>.replace 85 p.env.userInfo.user               -- U
    |>.replace 87 (decNat p.env.userInfo.cols)      -- W

/-- Writing the local prompt to the user's terminal (lib.rs:291-292 with sudo_plugin
io_env.rs:181-185 and tty.rs): `true` if everything was written. -/
def ttyPrompt (p : Pair) (prompt : Bytes) : M Bool := do
  match p.env.userInfo.tty with
  | none      => pure false
  | some path =>
    if ← M.sys (.ttyOpen path) then writeAll (fun buf => M.sys (.ttyWrite buf)) prompt
    else pure false

/-- `local_pair_prompt` (lib.rs:247-296). -/
def localPairPrompt (p : Pair) (spec : TemplateSpec) : M Unit := do
  let template := (← M.sys (.readFile p.options.userPromptPath)).getD defaultUserPrompt
  let prompt := spec.expand template
  if ← p.ttyPrompt prompt then pure ()
  else
    let _ ← (PrintFacility.stderr p.env.hasPrintf).writeAll prompt
    pure ()

/-- `remote_pair_connect` (lib.rs:298-335), for `self.socket = None` (its only call site).
`socket_mode` may panic. -/
def remotePairConnect (rt : Rt) (p : Pair) : M (Except ErrorKind Nat) := do
  let mode ← M.ofOption p.socketMode
  match ← Socket.open' rt p.socketPath p.socketUid p.socketGid mode with
  | some conn => pure (.ok conn.fd)
  | none      => pure (.error .communicationError)

/-- The byte in `response` after `read` (lib.rs:363-376): it is `n` unless a byte was read. -/
def responseByte {len : Nat} : ReadRes len → Option UInt8
  | .data (b :: _) _ => some b
  | .data [] _       => some 110
  | .intr            => none
  | .fail            => none

/-- `remote_pair_prompt` (lib.rs:337-400). -/
def remotePairPrompt (p : Pair) (spec : TemplateSpec) (fd : Nat) : M (Except ErrorKind Unit) := do
  let template := (← M.sys (.readFile p.options.pairPromptPath)).getD defaultPairPrompt
  let prompt := spec.expand template
  if ← Socket.writeAll fd prompt then
    if ← Socket.flush then
      match responseByte (← Socket.read fd 1) with
      | none => pure (.error .sessionDeclined)
      | some r =>
        let _ ← Socket.writeAll fd [r]
        let _ ← Socket.writeAll fd (b! "\n")
        if r = 121 ∨ r = 89 then pure (.ok ()) else pure (.error .sessionDeclined)
    else pure (.error .communicationError)
  else pure (.error .communicationError)

/-- `SudoPair::open` (lib.rs:114-198).  Dropping `pair` on an error or panic after the connection was
made shuts the socket down. -/
def «open» (rt : Rt) (env : IoEnv) : M (Except ErrorKind Pair) := do
  let pair : Pair := { env, options := .ofMap env.pluginOptions, socket := none }
  if ← M.ofOption (pair.isExempt rt.debug) then pure (.ok pair)
  else if pair.toUserAndGroup then pure (.error .sudoToUserAndGroup)
  else
    let spec := pair.templateSpec
    pair.localPairPrompt spec
    match ← pair.remotePairConnect rt with
    | .error e => pure (.error e)
    | .ok fd =>
      M.onUnwind (do
        match ← pair.remotePairPrompt spec fd with
        | .ok () => pure (.ok { pair with socket := some fd })
        | .error e =>
          Socket.close fd
          pure (.error e)) (Socket.close fd)

/-- Dropping a `SudoPair`: its socket, if any, is shut down (`Drop for Socket`). -/
def drop (p : Pair) : M Unit :=
  match p.socket with
  | none    => pure ()
  | some fd => Socket.close fd

/-- `SudoPair::close` (lib.rs:200-207): explicit `close`, then the drop of the taken socket. -/
def close (p : Pair) : M Unit :=
  match p.socket with
  | none    => pure ()
  | some fd => do Socket.close fd; Socket.close fd

/-- `log_output` (lib.rs:236-245). -/
def logOutput (p : Pair) (log : Bytes) : M (Except ErrorKind Unit) :=
  match p.socket with
  | none    => pure (.ok ())
  | some fd => do
    if ← Socket.writeAll fd log then pure (.ok ()) else pure (.error .sessionTerminated)

/-- `log_stdin` (lib.rs:221-228). -/
def logStdin (rt : Rt) (p : Pair) : M (Except ErrorKind Unit) := do
  if ← M.ofOption (p.isExempt rt.debug) then pure (.ok ()) else pure (.error .stdinRedirected)

/-- `format!("\x1b[8;{};{}t", lines, cols)` (lib.rs:231). -/
def winsizeSeq (lines cols : Nat) : Bytes := b! "\x1b[8;" ++ decNat lines ++ [59] ++ decNat cols ++ [116]

/-- `change_winsize` (lib.rs:230-232). -/
def changeWinsize (p : Pair) (lines cols : Nat) : M (Except ErrorKind Unit) :=
  p.logOutput (winsizeSeq lines cols)

end Pair
end SudoPair
