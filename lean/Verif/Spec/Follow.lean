import Verif.Spec.Frontend
import Verif.Spec.Mirror
import Verif.Spec.Screen
import Verif.Spec.Text
/-
Two terminals: the user's, to which sudo passes the output of the command and which somebody resizes, and the pair's, to
which sudo_approve hands what it receives (sample/bin/sudo_approve:32-43).  This is an assumption about terminals, not code
of /repo.
-/
namespace SudoPair.Spec
open Core

/-- Any terminal: what a byte does to its state, and what becomes of its state when its window gets another size. -/
structure Terminal (S : Type) where
  feed   : S → UInt8 → S
  resize : S → Nat → Nat → S

namespace Terminal
variable {S : Type} (T : Terminal S)

/-- What a text does. -/
def type (s : S) (text : Bytes) : S := text.foldl T.feed s

/-- What happens to the user's terminal when sudo goes on after a callback. -/
def user (s : S) : Call → S
  | .log .ttyout buf   => T.type s buf
  | .changeWinsize l c => T.resize s l c
  | _                  => s

/-- The terminal, in the state `s`, takes the control sequence that sets its size. -/
def Takes (s : S) (l c : Nat) : Prop := T.type s (Spec.resize l c) = T.resize s l c

/-- It does so whenever one of the callbacks `cs` is a resize. -/
def Ready : S → List Call → Prop
  | _, []                      => True
  | s, .changeWinsize l c :: t => T.Takes s l c ∧ Ready (T.resize s l c) t
  | s, .log f buf :: t         => Ready (T.user s (.log f buf)) t
  | s, _ :: t                  => Ready s t

end Terminal

/-- The callback does not report output that goes elsewhere than to the terminal. -/
def OnTerminal (c : Call) : Prop := ∀ buf, c ≠ .log .stdout buf ∧ c ≠ .log .stderr buf

/-- Between two semicolons. -/
def fields : Bytes → List Bytes
  | []     => [[]]
  | b :: t => if b = 59 then [] :: fields t else
    match fields t with
    | []     => [[b]]
    | f :: r => (b :: f) :: r

/-- A terminal with a size: a screen as above, and `ESC [ 8 ; rows ; columns t` sets the size, unless one of the two is
zero. -/
structure Window where
  screen : Screen
  rows   : Nat
  cols   : Nat
  deriving DecidableEq, Repr

namespace Window

def feed (w : Window) (b : UInt8) : Window :=
  let size := match w.screen.esc, decide (b = 116) with
    | some (some ps), true => match fields ps with
      | [k, l, c] => if decVal k = 8 ∧ 0 < decVal l ∧ 0 < decVal c then (decVal l, decVal c) else (w.rows, w.cols)
      | _ => (w.rows, w.cols)
    | _, _ => (w.rows, w.cols)
  ⟨w.screen.feed b, size.1, size.2⟩

/-- As a terminal.  When the window gets another size, the text stays. -/
def terminal : Terminal Window := ⟨feed, fun w l c => { w with rows := l, cols := c }⟩

end Window

end SudoPair.Spec
