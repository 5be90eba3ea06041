/-
Byte strings.  All text in sudo_pair is handled as bytes (`&[u8]`, `OsStr`, `CStr`, `&str`).
-/
namespace SudoPair

/-- A byte string (`Vec<u8>`, `&[u8]`, `OsString`, `CString` contents, or the bytes of a `&str`). -/
abbrev Bytes := List UInt8

open Lean in
/-- `b! "text"`: the ASCII/UTF-8 bytes of a literal, written out as a list of byte literals. -/
macro "b!" s:str : term => do
  let elems := s.getString.toUTF8.toList.toArray.map
    (fun b => (Syntax.mkNumLit (toString b.toNat)))
  `(([ $[$elems],* ] : List UInt8))

/-- Decimal rendering of a natural number (`to_string`/`format!("{}")` on unsigned integers in
sudo_pair/src/lib.rs:565-568, 648-663, 231 and settings.rs:264). -/
def decNat (n : Nat) : Bytes :=
  if h : n < 10 then [UInt8.ofNat (48 + n)]
  else decNat (n / 10) ++ [UInt8.ofNat (48 + n % 10)]
termination_by n
decreasing_by omega

/-- Decimal rendering of a signed integer (`pid_t` is `i32`; sudo_pair/src/lib.rs:565-568, 654). -/
def decInt : Int → Bytes
  | .ofNat n   => decNat n
  | .negSucc n => 45 :: decNat (n + 1)

/-- `split` on a single separator byte; always yields at least one piece.  Models
`str::split(|c| c == SEP)` (sudo_plugin/src/options/traits.rs:153-155) for an ASCII separator and the
separator scan of `std::path`. -/
def splitOn (sep : UInt8) : Bytes → List Bytes
  | [] => [[]]
  | b :: bs =>
    if b = sep then [] :: splitOn sep bs
    else match splitOn sep bs with
      | []      => [[b]]
      | p :: ps => (b :: p) :: ps

/-- `slice.join(&sep)` / rejoining pieces with a separator byte
(sudo_plugin/src/plugin/io_env.rs:199 `flags.join(&b' ')`). -/
def joinWith (sep : UInt8) : List Bytes → Bytes
  | []           => []
  | [p]          => p
  | p :: q :: ps => p ++ sep :: joinWith sep (q :: ps)

end SudoPair
