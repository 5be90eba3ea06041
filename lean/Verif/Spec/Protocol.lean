import Verif.Model.Os
/-
What each callback does, as a state machine: in every phase there is exactly one interaction with the
system, or the callback is over.  The machine follows the documentation of the plugin; it knows nothing of
the plugin's functions, of unwinding or of drop glue.
-/
namespace SudoPair.Spec

/-- What a phase asks for: the end, or one interaction and the phase each reply leads to. -/
inductive Move (σ ρ : Type) where
  | done (r : ρ)
  | call (c : Sys) (k : Resp c → σ)

/-- Running a machine against the answers of the system; when they run out, the process is killed. -/
def runMachine {σ ρ : Type} (move : σ → Move σ ρ) : σ → Sched → Out ρ × Hist × Sched
  | x, [] => match move x with
    | .done r => (.ok r, [], [])
    | .call _ _ => (.killed, [], [])
  | x, a :: s => match move x with
    | .done r => (.ok r, [], a :: s)
    | .call c k =>
      let rest := runMachine move (k (a c)) s
      (rest.1, ⟨c, a c⟩ :: rest.2.1, rest.2.2)

/-- A run whose result is `f` of the machine's. -/
def withResult {α β : Type} (f : α → β) : Out α × Hist × Sched → Out β × Hist × Sched
  | (.ok a, h, s)   => (.ok (f a), h, s)
  | (.panic, h, s)  => (.panic, h, s)
  | (.killed, h, s) => (.killed, h, s)

/-- What is fixed about a session before the plugin first interacts with anything. -/
structure Session where
  /-- The user's terminal. -/
  tty      : Option Bytes
  /-- Does sudo offer a way to print: for the user's prompt, for error messages. -/
  prints   : Bool
  reports  : Bool
  /-- The file with the user's prompt, and the text as a function of its contents. -/
  userFile : Bytes
  userText : Option Bytes → Bytes
  /-- The same for the pair's prompt. -/
  pairFile : Bytes
  pairText : Option Bytes → Bytes
  /-- The socket's path, the directory it is in, and the owner that directory must have. -/
  path     : Bytes
  dir      : Option Bytes
  root     : Nat
  /-- Owner, group and mode for the socket. -/
  uid      : Nat
  gid      : Nat
  mode     : Option Nat
  /-- The number of descriptors `select` can handle. -/
  fds      : Nat
  /-- Is there a pairing already? -/
  occupied : Bool

/-- How a callback ends: refused, or granted (with the connection to a pair, if one was made and is
kept). -/
inductive Verdict where
  | refused
  | granted (fd : Option Nat)
  deriving DecidableEq, Repr

/-- What is to be done on the connection. -/
inductive Errand where
  /-- Deliver the rest of the pair's prompt. -/
  | prompt (rest : Bytes)
  | flush
  /-- Read the answer. -/
  | answer
  /-- Echo the answer, and then a newline. -/
  | echo (answer : UInt8) (rest : Bytes)
  | newline (answer : UInt8) (rest : Bytes)
  /-- Deliver the rest of what the session printed. -/
  | mirror (rest : Bytes)
  deriving DecidableEq, Repr

/-- What came of it. -/
inductive Came where
  | wrote (r : WriteRes)
  | byte (b : Option UInt8)
  | flushed
  /-- The handler of SIGINT could not be changed. -/
  | failed
  deriving DecidableEq, Repr

/-- The phases. -/
inductive Step where
  | over (v : Verdict)
  /-- Print `text` (which is not empty), then the texts `more`; then the callback is over with verdict
  `v`. -/
  | say (level : Nat) (text : Bytes) (more : List Bytes) (v : Verdict)
  /-- Read the file with the user's prompt, open the terminal, write the rest of `text` there; or print
  the rest of it. -/
  | userFile
  | ttyOpen (tty text : Bytes)
  | tty (text rest : Bytes)
  | tell (rest : Bytes)
  /-- Examine the directory, and what is at the path; remove a stale socket. -/
  | vet (dir : Bytes)
  | look
  | stale
  /-- Clear the umask, create the socket, give it away, open it. -/
  | mask
  | bind (old : Nat)
  | own (old fd : Nat)
  | permit (old fd mode : Nat)
  /-- Wait for somebody, let them in. -/
  | wait (old fd : Nat)
  | admit (old fd : Nat)
  /-- Remove the socket file, restore the umask. -/
  | tidy (old : Nat) (c : Option Conn)
  | remove (old : Nat) (c : Option Conn)
  | unmask (old : Nat) (c : Option Conn)
  /-- Read the file with the pair's prompt. -/
  | pairFile (fd : Nat)
  /-- For each errand: look up the handler of SIGINT, let it abort system calls, do the errand, restore
  the handler. -/
  | guard (fd : Nat) (e : Errand)
  | arm (fd : Nat) (e : Errand) (old : SigAction)
  | act (fd : Nat) (e : Errand) (old : SigAction)
  | disarm (fd : Nat) (e : Errand) (old : SigAction) (c : Came)
  /-- Hang up, tell the user why (if at all), and refuse. -/
  | hangup (fd : Nat) (why : Option Bytes)
  /-- Hang up a superfluous connection. -/
  | spare (fd : Nat)
  /-- Hang up at the end of the session (twice). -/
  | bye (fd : Nat)
  | byebye (fd : Nat)
  deriving DecidableEq

/-- The texts of an error message. -/
def errorTexts (msg : Bytes) : List Bytes := [b! "\n", b! "sudo_pair: ", msg, b! "\n"]

/-- Print these texts, as far as it goes, and then end with verdict `v`. -/
def Step.says (can : Bool) (level : Nat) (v : Verdict) : List Bytes → Step
  | [] => .over v
  | t :: more =>
    if t = [] then Step.says can level v more
    else if can = true ∧ (0 : UInt8) ∉ t then .say level t more v
    else .over v

/-- Refuse with a message. -/
def Step.refuse (can : Bool) (msg : Bytes) : Step := .says can 3 .refused (errorTexts msg)

/-- Delivering `rest` bit by bit: where the reply of the system leads.  Of a `rest` that was accepted in
part the remainder is delivered next, an interruption is no reason to stop, and nobody accepts more than
was offered (`absurd`). -/
def deliver (again : Bytes → Step) (done failed absurd : Step) (rest : Bytes) : WriteRes → Step
  | .intr => again rest
  | .fail => failed
  | .wrote n =>
    if n = 0 then failed
    else if n < rest.length then again (rest.drop n)
    else if n = rest.length then done
    else absurd

namespace Session

variable (S : Session)

/-- The start of the handshake proper. -/
def connect : Step :=
  match S.mode, S.dir with
  | none, _ => .over .refused
  | some _, none => .refuse S.reports (b! "couldn't establish communications with the pair")
  | some _, some d =>
    if (0 : UInt8) ∈ d then .refuse S.reports (b! "couldn't establish communications with the pair")
    else .vet d

/-- Printing the user's prompt. -/
def tell (text : Bytes) : Step :=
  if text = [] then S.connect
  else if S.prints = true ∧ (0 : UInt8) ∉ text then .tell text
  else S.connect

/-- Is this a directory that only root can write to? -/
def vetted (d : Stat) : Prop := d.mode &&& 0o040000 ≠ 0 ∧ d.uid = S.root ∧ d.mode &&& 0o022 = 0

instance (d : Stat) : Decidable (S.vetted d) := by unfold vetted; infer_instance

/-- There is no connection (yet): refuse. -/
def failed : Step := .refuse S.reports (b! "couldn't establish communications with the pair")

/-- The pair answered `b` and has been told so. -/
def decide (fd : Nat) (b : UInt8) : Step :=
  if b = 121 ∨ b = 89 then if S.occupied then .spare fd else .over (.granted (some fd))
  else .hangup fd (some (b! "pair declined the session"))

/-- Where an errand leads. -/
def after (fd : Nat) : Errand → Came → Step
  | .prompt rest, .wrote r =>
    deliver (fun rest => .guard fd (.prompt rest)) (.guard fd .flush)
      (.hangup fd (some (b! "couldn't establish communications with the pair"))) (.hangup fd none) rest r
  | .prompt _, _ => .hangup fd (some (b! "couldn't establish communications with the pair"))
  | .flush, .flushed => .guard fd .answer
  | .flush, _ => .hangup fd (some (b! "couldn't establish communications with the pair"))
  | .answer, .byte (some b) => .guard fd (.echo b [b])
  | .answer, _ => .hangup fd (some (b! "pair declined the session"))
  | .echo b rest, .wrote r =>
    deliver (fun rest => .guard fd (.echo b rest)) (.guard fd (.newline b (b! "\n")))
      (.guard fd (.newline b (b! "\n"))) (.hangup fd none) rest r
  | .echo b _, _ => .guard fd (.newline b (b! "\n"))
  | .newline b rest, .wrote r =>
    deliver (fun rest => .guard fd (.newline b rest)) (S.decide fd b) (S.decide fd b) (.hangup fd none) rest r
  | .newline b _, _ => S.decide fd b
  | .mirror rest, .wrote r =>
    deliver (fun rest => .guard fd (.mirror rest)) (.over (.granted none))
      (.refuse S.reports (b! "pair ended the session")) (.over .refused) rest r
  | .mirror _, _ => .refuse S.reports (b! "pair ended the session")

/-- The answer in what was read: a closed connection counts as `n`. -/
def answerIn : ReadRes 1 → Option UInt8
  | .data [] _ => some 110
  | .data (b :: _) _ => some b
  | .intr => none
  | .fail => none

/-- The machine. -/
def move : Step → Move Step Verdict
  | .over v => .done v
  | .say level text more v => .call (.printf level text) fun r =>
    deliver (fun t => .say level t more v) (.says true level v more) (.over v) (.over .refused) text r
  | .userFile => .call (.readFile S.userFile) fun r =>
    match S.tty with
    | none => S.tell (S.userText r)
    | some tty => .ttyOpen tty (S.userText r)
  | .ttyOpen tty text => .call (.ttyOpen tty) fun ok =>
    if ok then if text = [] then S.connect else .tty text text else S.tell text
  | .tty text rest => .call (.ttyWrite rest) fun r =>
    deliver (fun rest => .tty text rest) S.connect (S.tell text) (.over .refused) rest r
  | .tell rest => .call (.printf 3 rest) fun r =>
    deliver (fun rest => .tell rest) S.connect S.connect (.over .refused) rest r
  | .vet d => .call (.stat d) fun r =>
    match r with
    | none => S.failed
    | some st => if S.vetted st then .look else S.failed
  | .look => .call (.metadata S.path) fun r =>
    match r with
    | none => .mask
    | some true => .stale
    | some false => S.failed
  | .stale => .call (.removeFile S.path) fun ok => if ok then .mask else S.failed
  | .mask => .call (.umask 0o777) fun old => .bind old
  | .bind old => .call (.bind S.path) fun r =>
    match r with
    | .bound fd => if (0 : UInt8) ∈ S.path then .tidy old none else .own old fd
    | .failed => .tidy old none
    | .failLeft => .tidy old none
  | .own old fd => .call (.chown S.path S.uid S.gid) fun ok =>
    match ok, S.mode with
    | true, some mode => .permit old fd mode
    | _, _ => .tidy old none
  | .permit old fd mode => .call (.chmod S.path mode) fun ok =>
    if ok then if fd < S.fds then .wait old fd else .over .refused else .tidy old none
  | .wait old fd => .call (.select fd) fun r =>
    if r = (1, true) then .admit old fd
    else if r.1 = -1 then .tidy old none
    else .over .refused
  | .admit old fd => .call (.accept fd) fun c => .tidy old c
  | .tidy old c => .call (.metadata S.path) fun r =>
    if r = some true then .remove old c else .unmask old c
  | .remove old c => .call (.removeFile S.path) fun _ => .unmask old c
  | .unmask old c => .call (.umask old) fun _ =>
    match c with
    | none => S.failed
    | some c => .pairFile c.fd
  | .pairFile fd => .call (.readFile S.pairFile) fun r =>
    if S.pairText r = [] then .guard fd .flush else .guard fd (.prompt (S.pairText r))
  | .guard fd e => .call .sigGet fun r =>
    match r with
    | none => S.after fd e .failed
    | some old => .arm fd e old
  | .arm fd e old => .call (.sigSet { old with flags := old.flags &&& ~~~ 0x10000000#32 }) fun ok =>
    match ok, e with
    | true, .flush => .disarm fd .flush old .flushed
    | true, _ => .act fd e old
    | false, _ => S.after fd e .failed
  | .act fd e old =>
    match e with
    | .answer => .call (.sockRead fd 1) fun r => .disarm fd e old (.byte (answerIn r))
    | .flush => .done .refused
    | .prompt rest => .call (.sockWrite fd rest) fun r => .disarm fd e old (.wrote r)
    | .echo _ rest => .call (.sockWrite fd rest) fun r => .disarm fd e old (.wrote r)
    | .newline _ rest => .call (.sockWrite fd rest) fun r => .disarm fd e old (.wrote r)
    | .mirror rest => .call (.sockWrite fd rest) fun r => .disarm fd e old (.wrote r)
  | .disarm fd e old c => .call (.sigSet old) fun ok => S.after fd e (if ok then c else .failed)
  | .hangup fd why => .call (.shutdown fd) fun _ =>
    match why with
    | none => .over .refused
    | some msg => .refuse S.reports msg
  | .spare fd => .call (.shutdown fd) fun _ => .over (.granted none)
  | .bye fd => .call (.shutdown fd) fun _ => .byebye fd
  | .byebye fd => .call (.shutdown fd) fun _ => .over (.granted none)

end Session

end SudoPair.Spec
