import Verif.Model.Ffi
/-
sudo's side of the contract: how arguments lie in memory (sudo_plugin(8); option_map.rs:43-53,
io_env.rs:98-102).  No object is larger than half the address space.
-/
namespace SudoPair.Spec
open Ffi

/-- The size of a pointer, in bytes: C's `sizeof (char *)`. -/
def pointerSize (m : Mem) : Nat := if m.is64 then 8 else 4

/-- The first size that is too large for an object: C's `PTRDIFF_MAX + 1`. -/
def tooLarge (m : Mem) : Nat := if m.is64 then 0x8000000000000000 else 0x80000000

/-- The C string `s` is at `p`. -/
structure StringAt (m : Mem) (p : Nat) (s : Bytes) : Prop where
  nonnull : p ≠ 0
  nonzero : 0 ∉ s
  size    : s.length < tooLarge m
  content : ∀ i (h : i < s.length), m.byte (p + i) = some s[i]
  nul     : m.byte (p + s.length) = some 0

/-- The array at `p` starts with pointers to the C strings `es`. -/
structure StringsAt (m : Mem) (p : Nat) (es : List Bytes) : Prop where
  nonnull : p ≠ 0
  aligned : p % pointerSize m = 0
  content : ∀ i (h : i < es.length), ∃ q, m.ptr (p + pointerSize m * i) = some q ∧ StringAt m q es[i]

/-- A NULL-terminated vector of C strings, or no vector at all. -/
def VectorAt (m : Mem) (p : Nat) : Option (List Bytes) → Prop
  | none    => p = 0
  | some es => StringsAt m p es ∧ m.ptr (p + pointerSize m * es.length) = some 0

/-- `argc` strings at `argv`. -/
def ArgvAt (m : Mem) (argv : Nat) (argc : BitVec 32) (es : List Bytes) : Prop :=
  StringsAt m argv es ∧ argc.toInt = es.length ∧ pointerSize m * es.length < tooLarge m

/-- The raw arguments `r` stand for `a`. -/
structure Represents (m : Mem) (r : RawArgs) (a : OpenArgs) : Prop where
  version       : r.version = a.version
  hasPrintf     : r.hasPrintf = a.hasPrintf
  argv          : ArgvAt m r.argv r.argc a.argv
  settings      : VectorAt m r.settings a.settings
  userInfo      : VectorAt m r.userInfo a.userInfo
  commandInfo   : VectorAt m r.commandInfo a.commandInfo
  userEnv       : VectorAt m r.userEnv a.userEnv
  pluginOptions : VectorAt m r.pluginOptions a.pluginOptions

/-- The `len` bytes at `p` are `b`. -/
structure BufferAt (m : Mem) (p : Nat) (len : BitVec 32) (b : Bytes) : Prop where
  nonnull : p ≠ 0
  length  : b.length = len.toNat
  size    : b.length < tooLarge m
  content : ∀ i (h : i < b.length), m.byte (p + i) = some b[i]

end SudoPair.Spec
