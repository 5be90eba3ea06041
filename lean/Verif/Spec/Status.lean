import Verif.Spec.Extras
/-
The exit status of a command line that is a script which may start itself through sudo.
-/
namespace SudoPair.Spec

/-- The command for which the approver called the script: the connection, or the script again under another identity. -/
def Purpose (x : Approve.Cmd) : Prop :=
  (∃ path, x = .socat path) ∨ ∃ name uid pid, x = .sudoUser name uid pid ∨ x = .sudoGroup name uid pid

/-- A run of the script, with the runs that it starts through sudo: given how one run goes (`one`: commands and exit
status), the environment and the arguments of the first run, the answers and commands of all runs, and the exit status
of the first.  A command that fails has a status other than 0.  sudo's status is that of the command it runs; sudo may also refuse to run it. -/
inductive Finished
    (one : Approve.Vars → Approve.Answers → (Approve.Cmd → Nat) → List Bytes → List Approve.Cmd × Nat) :
    Approve.Vars → List Bytes → List (Approve.Answers × List Approve.Cmd) → Nat → Prop
  | here {su ans codes args} :
      (∀ c, codes c ≠ 0) →
      (∀ x ∈ (one su ans codes args).1, ∀ name uid pid, (x = .sudoUser name uid pid ∨ x = .sudoGroup name uid pid) →
        ans x = none) →
      Finished one su args [(ans, (one su ans codes args).1)] (one su ans codes args).2
  | there {su su' ans codes args x name uid pid rest m} :
      (∀ c, codes c ≠ 0) →
      x ∈ (one su ans codes args).1 → (x = .sudoUser name uid pid ∨ x = .sudoGroup name uid pid) →
      Finished one su' [decimalInt uid, decimalInt pid] rest m →
      (ans x = none ↔ m ≠ 0) → (m ≠ 0 → codes x = m) →
      Finished one su args ((ans, (one su ans codes args).1) :: rest) (one su ans codes args).2

end SudoPair.Spec
