import Verif.Model.Os
/-
Observations on histories of system interactions: what was delivered to whom, what failed.
Nothing here mentions the plugin's code.
-/
namespace SudoPair.Spec

/-- The bytes that this event delivered to the peer connected as `fd`. -/
def sent (fd : Nat) : Ev → Bytes
  | ⟨.sockWrite fd' buf, .wrote n⟩ => if fd' = fd then buf.take n else []
  | _ => []

/-- The bytes delivered to the peer connected as `fd`, in order. -/
def delivered (fd : Nat) (h : Hist) : Bytes := h.flatMap (sent fd)

/-- The event is an attempt to read from `fd`. -/
def IsRead (fd : Nat) (e : Ev) : Prop := ∃ len, e.call = .sockRead fd len

/-- The reply is exactly one byte `b`. -/
def Read1 (b : UInt8) (fd : Nat) : Ev → Prop
  | ⟨.sockRead fd' _, .data bs _⟩ => fd' = fd ∧ bs = [b]
  | _ => False

/-- The operating system reported that a step of the handshake or of the mirroring failed.  (An
interrupted write is not a failure, it is repeated.  A `select` answer other than "one descriptor,
namely the listener" counts as failure.) -/
def Fails : Ev → Prop
  | ⟨.stat _, r⟩        => r = none
  | ⟨.bind _, .bound _⟩ => False
  | ⟨.bind _, _⟩        => True
  | ⟨.chown _ _ _, r⟩   => r = false
  | ⟨.chmod _ _, r⟩     => r = false
  | ⟨.select _, r⟩      => r ≠ (1, true)
  | ⟨.accept _, r⟩      => r = none
  | ⟨.sockWrite _ _, r⟩ => r = .fail ∨ r = .wrote 0
  | ⟨.sigGet, r⟩        => r = none
  | ⟨.sigSet _, r⟩      => r = false
  | _                   => False

/-- The kernel claims to have accepted more bytes than it was given. -/
def Overcount : Ev → Prop
  | ⟨.sockWrite _ buf, .wrote n⟩ => buf.length < n
  | ⟨.ttyWrite buf, .wrote n⟩    => buf.length < n
  | ⟨.printf _ buf, .wrote n⟩    => buf.length < n
  | _ => False

/-- The template of a prompt: the contents of the configured file if it could be read, else the
built-in default. -/
def TemplateRead (path dflt : Bytes) (h : Hist) (template : Bytes) : Prop :=
  (⟨.readFile path, some template⟩ : Ev) ∈ h ∨
  ((⟨.readFile path, none⟩ : Ev) ∈ h ∧ template = dflt)

end SudoPair.Spec
