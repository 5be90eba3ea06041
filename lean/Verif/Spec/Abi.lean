import Verif.Model.Abi
import Verif.Spec.Ffi
import Verif.Spec.Table
/-
How sudo calls a plugin: by the prototypes of include/sudo_plugin.h.
-/
namespace SudoPair.Header
open Spec

/-- The parameters of the members of `struct io_plugin` (sudo_plugin.h:192-209), in order. -/
def params : Framework.Call → List String
  | .open _ => ["version", "conversation", "sudo_printf", "settings", "user_info", "command_info", "argc", "argv",
      "user_env", "plugin_options", "errstr"]
  | .close _ _ => ["exit_status", "error"]
  | .showVersion _ => ["verbose"]
  | .log _ _ => ["buf", "len", "errstr"]
  | .changeWinsize _ _ => ["line", "cols", "errstr"]

/-- The 32 bits of an `int` or `unsigned int` passed in a word. -/
def low {n : Nat} (w : BitVec n) : BitVec 32 := BitVec.ofNat 32 (w.toNat % 2 ^ 32)

/-- Passing `val name` for each parameter makes the callback `c`. -/
def Means {n : Nat} (m : Ffi.Mem) (val : String → BitVec n) : Framework.Call → Prop
  | .open a => Represents m
      { version := low (val "version"), hasPrintf := val "sudo_printf" ≠ 0, settings := (val "settings").toNat,
        userInfo := (val "user_info").toNat, commandInfo := (val "command_info").toNat, argc := low (val "argc"),
        argv := (val "argv").toNat, userEnv := (val "user_env").toNat,
        pluginOptions := (val "plugin_options").toNat } a
  | .close x e => (low (val "exit_status")).toInt = x ∧ (low (val "error")).toInt = e
  | .showVersion v => (low (val "verbose")).toInt = v
  | .log _ b => BufferAt m (val "buf").toNat (low (val "len")) b
  | .changeWinsize l c => (low (val "line")).toNat = l ∧ (low (val "cols")).toNat = c

/-- The parameters of the members of `struct approval_plugin` (sudo_plugin.h:251-260), in order. -/
def approvalParams : DenyEverything.Call → List String
  | .open _ _ _ => ["version", "conversation", "sudo_printf", "settings", "user_info", "submit_optind", "submit_argv",
      "submit_envp", "plugin_options", "errstr"]
  | .check => ["command_info", "run_argv", "run_envp", "errstr"]
  | .showVersion => ["verbose"]

/-- Passing `val name` for each parameter makes the call. -/
def MeansApproval {n : Nat} (val : String → BitVec n) : DenyEverything.Call → Prop
  | .open v conv print => low (val "version") = v ∧ (conv = true ↔ val "conversation" ≠ 0) ∧
      (print = true ↔ val "sudo_printf" ≠ 0)
  | .check => True
  | .showVersion => True

end SudoPair.Header
