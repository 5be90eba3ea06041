import Verif.Model.Bytes
/-
When two Unix path strings are spellings of the same sequence of components.
-/
namespace SudoPair.Spec

/-- Two paths are spellings of each other: the equivalence generated by removing a redundant slash, a
`.` component that is not the first one of a relative path, or a trailing slash. -/
inductive SamePath : Bytes → Bytes → Prop
  | slashes (a b : Bytes) : SamePath (a ++ b! "//" ++ b) (a ++ b! "/" ++ b)
  | dot (a b : Bytes) : SamePath (a ++ b! "/./" ++ b) (a ++ b! "/" ++ b)
  | dotEnd (a : Bytes) : SamePath (a ++ b! "/.") (a ++ b! "/")
  | slashEnd (a : Bytes) : a ≠ [] → SamePath (a ++ b! "/") a
  | refl (a : Bytes) : SamePath a a
  | symm {a b : Bytes} : SamePath a b → SamePath b a
  | trans {a b c : Bytes} : SamePath a b → SamePath b c → SamePath a c

/-- The part of a path that names the directory `dir` of the file: the shortest beginning of the path that is a spelling
of `dir`. -/
def DirPart (path dir d : Bytes) : Prop :=
  d <+: path ∧ SamePath d dir ∧ ∀ d', d' <+: path → SamePath d' dir → d.length ≤ d'.length

end SudoPair.Spec
