import Verif.Model.Bytes
/-
sudo_pair/src/template.rs
-/
namespace SudoPair

/-- `Spec` (template.rs:19-22).  The `HashMap<u8, Vec<u8>>` is an association list, newest first. -/
structure TemplateSpec where
  escape     : UInt8
  expansions : List (UInt8 × Bytes)
  deriving DecidableEq, Repr

namespace TemplateSpec

/-- `Spec::with_escape` (template.rs:29-31). -/
def withEscape (e : UInt8) : TemplateSpec := ⟨e, []⟩

/-- `Spec::new`/`default` (template.rs:25-27, 77-84): the escape byte is `%`. -/
def new : TemplateSpec := withEscape 37

/-- `Spec::replace` (template.rs:33-35): `HashMap::insert`. -/
def replace (t : TemplateSpec) (k : UInt8) (v : Bytes) : TemplateSpec :=
  { t with expansions := (k, v) :: t.expansions.filter (fun e => e.1 ≠ k) }

/-- `Spec::from(HashMap)` (template.rs:86-90): the given table, with the default escape byte. -/
def ofMap (m : List (UInt8 × Bytes)) : TemplateSpec := { new with expansions := m }

/-- `self.expansions.get(&byte)` (template.rs:67). -/
def get (t : TemplateSpec) (k : UInt8) : Option Bytes :=
  (t.expansions.find? (fun e => e.1 = k)).map (·.2)

/-- `iter.by_ref().take_while(|b| *b != escape)` (template.rs:45-47): the literal bytes, and what is
left in the iterator.  The first byte failing the test is consumed. -/
def takeWhileRef (e : UInt8) : Bytes → Bytes × Bytes
  | []      => ([], [])
  | b :: bs =>
    if b = e then ([], bs)
    else ((b :: (takeWhileRef e bs).1), (takeWhileRef e bs).2)

theorem takeWhileRef_length (e : UInt8) (bs : Bytes) :
    (takeWhileRef e bs).2.length ≤ bs.length := by
  induction bs with
  | nil => simp [takeWhileRef]
  | cons b bs ih => unfold takeWhileRef; split <;> simp <;> omega

/-- The loop of `Spec::expand` (template.rs:37-74): `iter` is the remaining input; the accumulated
`result` is what is returned in front. -/
def expand (t : TemplateSpec) (iter : Bytes) : Bytes :=
  match iter with
  | [] => []                                    -- `while iter.len() != 0`
  | b :: bs =>
    let lit  := (takeWhileRef t.escape (b :: bs)).1
    match _h : (takeWhileRef t.escape (b :: bs)).2 with
    | []           => lit                       -- `iter.next()` is `None`: break
    | byte :: rest =>
      match t.get byte with
      | some x => lit ++ x ++ expand t rest
      | none   => lit ++ [byte] ++ expand t rest
termination_by iter.length
decreasing_by
  all_goals
    have := takeWhileRef_length t.escape (b :: bs)
    rw [_h] at this
    simp at this ⊢
    omega

end TemplateSpec
end SudoPair
