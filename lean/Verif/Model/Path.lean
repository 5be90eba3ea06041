import Verif.Model.Bytes
/-
The parts of `std::path` (Unix) that the plugin relies on.
-/
namespace SudoPair

/-- `std::path::Component` (Unix). -/
inductive Comp where
  | root
  | cur
  | parent
  | normal (name : Bytes)
  deriving DecidableEq, Repr

namespace Path

/-- `has_physical_root`. -/
def hasRoot (p : Bytes) : Bool := p.head? = some 47

/-- `include_cur_dir`: a leading `.` component of a relative path is kept. -/
def includeCur (p : Bytes) : Bool := p = [46] || [46, 47].isPrefixOf p

/-- The part of the path before its body: the root slash or the leading dot (`len_before_body`). -/
def headLen (p : Bytes) : Nat := if hasRoot p || includeCur p then 1 else 0

/-- `parse_single_component`: empty and `.` segments are skipped. -/
def single (s : Bytes) : Option Comp :=
  if s = [] ∨ s = [46] then none
  else if s = [46, 46] then some .parent
  else some (.normal s)

/-- `Path::components()`. -/
def components (p : Bytes) : List Comp :=
  (if hasRoot p then [.root] else if includeCur p then [.cur] else []) ++
  (splitOn 47 (p.drop (headLen p))).filterMap single

/-- `PathBuf == PathBuf` compares components (used by sudo_pair/src/lib.rs:490 and
sudo_plugin/src/core.rs:179). -/
def eq (p q : Bytes) : Bool := components p = components q

/-- `Path::join` with an argument (used by sudo_pair/src/lib.rs:563). -/
def join (p name : Bytes) : Bytes :=
  if hasRoot name then name
  else if p = [] then name
  else if p.getLast? = some 47 then p ++ name
  else p ++ 47 :: name

/-- Drop trailing segments that are not components (`trim_right`). -/
def trimTrailing (segs : List Bytes) : List Bytes :=
  (segs.reverse.dropWhile (fun s => (single s).isNone)).reverse

/-- `Path::parent()` (used by socket.rs:151). -/
def parent (p : Bytes) : Option Bytes :=
  let segs := trimTrailing (splitOn 47 (p.drop (headLen p)))
  if segs = [] then
    if hasRoot p then none else if includeCur p then some [] else none
  else
    some (p.take (headLen p) ++ joinWith 47 (trimTrailing segs.dropLast))

/-- `Path::file_name()` (used by sudo_pair/src/lib.rs:726). -/
def fileName (p : Bytes) : Option Bytes :=
  match (components p).getLast? with
  | some (.normal n) => some n
  | _                => none

end Path
end SudoPair
