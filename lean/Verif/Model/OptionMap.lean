import Verif.Model.Parse
/-
sudo_plugin/src/options/option_map.rs
-/
namespace SudoPair

/-- `OptionMap(HashMap<Vec<u8>, Vec<u8>>)` (option_map.rs:33), as an association list with at most
one entry per key. -/
abbrev OptionMap := List (Bytes × Bytes)

namespace OptionMap

/-- `HashMap::insert`. -/
def insert (m : OptionMap) (k v : Bytes) : OptionMap :=
  (k, v) :: m.filter (fun e => e.1 ≠ k)

/-- `HashMap::get` (option_map.rs:126-128 `get_bytes`). -/
def getBytes (m : OptionMap) (k : Bytes) : Option Bytes :=
  (m.find? (fun e => e.1 = k)).map (·.2)

/-- Splitting one entry (option_map.rs:68-81). -/
def splitEntry (e : Bytes) : Bytes × Bytes :=
  match splitFirst 61 e with
  | some kv => kv
  | none    => (e, e)

/-- `OptionMap::from_raw` (option_map.rs:55-96).  The C vector is a list of NUL-free strings
(`none` is the NULL pointer); reading them from memory is `Ffi.fromRaw`. -/
def fromRaw : Option (List Bytes) → OptionMap
  | none    => []
  | some es => es.foldl (fun m e => m.insert (splitEntry e).1 (splitEntry e).2) []

/-- `OptionMap::get_str` (option_map.rs:119-121). -/
def getStr (m : OptionMap) (k : Bytes) : Option Bytes :=
  (m.getBytes k).bind (fun v => if utf8Valid v then some v else none)

end OptionMap

/-- `sudo_plugin::errors::Error` (sudo_plugin/src/errors.rs:28-69), the variants that are ever
constructed in this code base. -/
inductive PluginError where
  | unsupportedApiVersion (providedMajor providedMinor : Nat)
  | optionMissing (key : Bytes)
  | optionInvalid (key value : Bytes)
  deriving DecidableEq, Repr

/-- `OptionMap::get::<T>` (option_map.rs:108-113). -/
def OptionMap.get {α : Type} (m : OptionMap) (p : Bytes → Option α) (k : Bytes) :
    Except PluginError α :=
  match m.getStr k with
  | none   => .error (.optionMissing k)
  | some v => match p v with
    | none   => .error (.optionInvalid k v)
    | some a => .ok a

/-- `map.get(k).ok()`. -/
def OptionMap.get? {α : Type} (m : OptionMap) (p : Bytes → Option α) (k : Bytes) : Option α :=
  (m.get p k).toOption

/-- `map.get(k).unwrap_or(d)`. -/
def OptionMap.getD {α : Type} (m : OptionMap) (p : Bytes → Option α) (k : Bytes) (d : α) : α :=
  (m.get? p k).getD d

end SudoPair
