import Verif.Spec.Trace
import Verif.Spec.Template
/-
What it means that a pair approved a session, as a property of the history of system interactions.
-/
namespace SudoPair.Spec

/-- During `h` a peer connected (as `fd`) to a socket bound at `sockPath`; after that and before
anything was read from anybody, the whole prompt went to that peer (the template found at
`promptPath`, or the default `dflt`, expanded with the variables `vars` and the escape byte `%`);
and the first thing ever read was exactly the byte `y` or `Y`, from that peer. -/
def Approved (sockPath promptPath dflt : Bytes) (vars : UInt8 → Option Bytes) (fd : Nat) (h : Hist) :
    Prop :=
  ∃ (before between after : Hist) (listener : Nat) (conn : Conn) (reply : Ev) (b : UInt8)
    (template prompt : Bytes),
    h = before ++ (⟨.accept listener, some conn⟩ : Ev) :: (between ++ reply :: after) ∧
    conn.fd = fd ∧
    (⟨.bind sockPath, .bound listener⟩ : Ev) ∈ before ∧
    (∀ e ∈ before, ∀ fd', ¬ IsRead fd' e) ∧
    (∀ e ∈ between, ∀ fd', ¬ IsRead fd' e) ∧
    TemplateRead promptPath dflt between template ∧
    Expands 37 vars template prompt ∧
    delivered fd between = prompt ∧
    Read1 b fd reply ∧
    (b = (Char.toNat 'y').toUInt8 ∨ b = (Char.toNat 'Y').toUInt8)

end SudoPair.Spec
