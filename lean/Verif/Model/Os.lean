import Verif.Model.Bytes
/-
The operating-system interface used by the plugin, and the monad in which effectful code is modelled.
-/
namespace SudoPair

/-- Reply to a `write`-like call: `n` bytes accepted, interrupted (`ErrorKind::Interrupted`), or any
other error. -/
inductive WriteRes where
  | wrote (n : Nat)
  | intr
  | fail
  deriving DecidableEq, Repr

/-- Reply to a `read` into a buffer of `len` bytes.  `read(2)` never returns more than `len` bytes,
which is built into the type. -/
inductive ReadRes (len : Nat) where
  | data (b : Bytes) (h : b.length ≤ len)
  | intr
  | fail

/-- The fields of `struct stat` the plugin looks at (sudo_pair/src/socket.rs:172-217). -/
structure Stat where
  mode : Nat
  uid  : Nat
  deriving DecidableEq, Repr

/-- Credentials of a process on the other side of the approval socket.  Ghost information: the plugin
never looks at it, it is only used in specifications. -/
structure Cred where
  uid    : Nat
  groups : List Nat
  deriving DecidableEq, Repr

/-- An accepted connection: its file descriptor and (ghost) the credentials of the peer. -/
structure Conn where
  fd   : Nat
  peer : Cred
  deriving DecidableEq, Repr

/-- A SIGINT disposition (`struct sigaction`): handler address, flag word, signal mask. -/
structure SigAction where
  handler : Nat
  flags   : BitVec 32
  mask    : Nat
  deriving DecidableEq, Repr

/-- Reply of `UnixListener::bind` = socket + bind + listen.  `failLeft` is the case in which the
socket file was created but a later step (`listen`) failed. -/
inductive BindRes where
  | bound (fd : Nat)
  | failed
  | failLeft
  deriving DecidableEq, Repr

/-- The system interactions the plugin performs. -/
inductive Sys where
  /-- `File::open(path)` and reading it to the end (sudo_pair/src/lib.rs:250-252, 340-342). -/
  | readFile (path : Bytes)
  /-- `OpenOptions::new().write(true).open(path)` (sudo_plugin/src/output/tty.rs:30-32). -/
  | ttyOpen (path : Bytes)
  /-- `File::write` on the tty (sudo_plugin/src/output/tty.rs:36-38). -/
  | ttyWrite (buf : Bytes)
  /-- sudo's printf function (sudo_plugin/src/output/print_facility.rs:112); `fmt` is the C format
  string passed. -/
  | printf (level : Nat) (fmt : Bytes)
  /-- `stat(2)` (socket.rs:165). -/
  | stat (path : Bytes)
  /-- `fs::metadata(path).map(is_socket)` (socket.rs:132). -/
  | metadata (path : Bytes)
  /-- `fs::remove_file(path)` (socket.rs:134). -/
  | removeFile (path : Bytes)
  /-- `umask(2)` (socket.rs:55, 122). -/
  | umask (mask : Nat)
  /-- `UnixListener::bind(path)` (socket.rs:58). -/
  | bind (path : Bytes)
  /-- `chown(2)` (socket.rs:64). -/
  | chown (path : Bytes) (uid gid : Nat)
  /-- `chmod(2)` (socket.rs:68). -/
  | chmod (path : Bytes) (mode : Nat)
  /-- `select(2)` on the listener, no timeout (socket.rs:85-91). -/
  | select (fd : Nat)
  /-- `accept` (socket.rs:105); std retries it on EINTR. -/
  | accept (fd : Nat)
  /-- `UnixStream::write` (socket.rs:247). -/
  | sockWrite (fd : Nat) (buf : Bytes)
  /-- `UnixStream::read` (socket.rs:241). -/
  | sockRead (fd : Nat) (len : Nat)
  /-- `UnixStream::shutdown(Both)` (socket.rs:128). -/
  | shutdown (fd : Nat)
  /-- `sigaction(SIGINT, NULL, &old)` (socket.rs:270). -/
  | sigGet
  /-- `sigaction(SIGINT, &new, NULL)` (socket.rs:279, 284). -/
  | sigSet (act : SigAction)
  deriving DecidableEq, Repr

/-- The type of replies to each system interaction.  `Option`: `none` is an error. `Bool`: success. -/
@[reducible] def Resp : Sys → Type
  | .readFile _    => Option Bytes
  | .ttyOpen _     => Bool
  | .ttyWrite _    => WriteRes
  | .printf _ _    => WriteRes
  | .stat _        => Option Stat
  | .metadata _    => Option Bool
  | .removeFile _  => Bool
  | .umask _       => Nat
  | .bind _        => BindRes
  | .chown _ _ _   => Bool
  | .chmod _ _     => Bool
  | .select _      => Int × Bool   -- return value, and `FD_ISSET` afterwards
  | .accept _      => Option Conn
  | .sockWrite _ _ => WriteRes
  | .sockRead _ n  => ReadRes n
  | .shutdown _    => Bool
  | .sigGet        => Option SigAction
  | .sigSet _      => Bool

/-- One entry of the history: a system interaction together with its reply. -/
structure Ev where
  call : Sys
  resp : Resp call

abbrev Hist := List Ev

/-- An answer of the environment: a reply to whichever call comes next. -/
abbrev Answer := (c : Sys) → Resp c

/-- A schedule: the answers to the successive calls.  When it runs out, the process is killed (or
blocked forever) at that call. -/
abbrev Sched := List Answer

/-- How a piece of code ends. -/
inductive Out (α : Type) where
  | ok (a : α)
  | panic
  | killed
  deriving DecidableEq, Repr

/-- Effectful code: consumes a prefix of the schedule, produces an outcome, the history of the calls
made, and the rest of the schedule. -/
def M (α : Type) := Sched → Out α × Hist × Sched

namespace M

variable {α β : Type}

def pure (a : α) : M α := fun s => (.ok a, [], s)

def bind (m : M α) (f : α → M β) : M β := fun s =>
  match m s with
  | (.ok a, h, s')   => match f a s' with
    | (o, h', s'')   => (o, h ++ h', s'')
  | (.panic, h, s')  => (.panic, h, s')
  | (.killed, h, s') => (.killed, h, s')

instance : Monad M where
  pure := M.pure
  bind := M.bind

/-- Perform a system interaction. -/
def sys (c : Sys) : M (Resp c) := fun s =>
  match s with
  | []     => (.killed, [], [])
  | a :: s => (.ok (a c), [⟨c, a c⟩], s)

/-- A Rust panic. -/
def panic : M α := fun s => (.panic, [], s)

/-- The process dies or blocks forever. -/
def killed : M α := fun s => (.killed, [], s)

/-- `std::panic::catch_unwind`: `none` if the code panicked. -/
def catchUnwind (m : M α) : M (Option α) := fun s =>
  match m s with
  | (.ok a, h, s')   => (.ok (some a), h, s')
  | (.panic, h, s')  => (.ok none, h, s')
  | (.killed, h, s') => (.killed, h, s')

/-- Run `cleanup` while unwinding if `m` panics (Rust drop glue), then continue panicking. -/
def onUnwind (m : M α) (cleanup : M Unit) : M α := fun s =>
  match m s with
  | (.panic, h, s')  => match cleanup s' with
    | (.killed, h', s'') => (.killed, h ++ h', s'')
    | (_, h', s'')       => (.panic, h ++ h', s'')
  | r => r

/-- The history of a run. -/
def hist (m : M α) (s : Sched) : Hist := (m s).2.1

/-- The outcome of a run. -/
def out (m : M α) (s : Sched) : Out α := (m s).1

end M

/-- The body of the loop of `Write::write_all` (Rust standard library) after `self.write(buf)`
returned: fail on an error or on a zero-length write, slice off the accepted bytes (slicing panics if
the writer claims to have accepted more than it was given), retry on `Interrupted`. `next` is the next
iteration.  `true` is `Ok(())`. -/
def writeRound (next : Bytes → M Bool) (buf : Bytes) : WriteRes → M Bool
  | .wrote 0       => pure false
  | .wrote (n + 1) => if n + 1 ≤ buf.length then next (buf.drop (n + 1)) else M.panic
  | .intr          => next buf
  | .fail          => pure false

/-- `Write::write_all` with at most `fuel` iterations. -/
def writeAllFuel (w : Bytes → M WriteRes) : Nat → Bytes → M Bool
  | _, []              => pure true
  | 0, _ :: _          => M.killed
  | fuel + 1, b :: bs  => do
    let r ← w (b :: bs)
    writeRound (writeAllFuel w fuel) (b :: bs) r

/-- `Write::write_all`.  Every iteration performs at least one system call or ends the loop, so the
length of the schedule bounds the number of iterations (`writeAll_eq` in Lemmas/Os.lean shows that
this definition satisfies the unbounded loop equation). -/
def writeAll (w : Bytes → M WriteRes) (buf : Bytes) : M Bool := fun s =>
  writeAllFuel w (s.length + 1) buf s

/-- `slog::Level`, from the most to the least detailed. -/
inductive Audit.Level where
  | trace | debug | info | warning | error
  deriving DecidableEq, Repr

/-- Constants of the process and external functions (parameters of the whole model).
`parseIp` stands for `<IpAddr as FromStr>::from_str` (an arbitrary function); `debug` says whether
debug assertions are compiled in; `euid`/`egid` are what `geteuid(2)`/`getegid(2)` return;
`fdSetSize` is `FD_SETSIZE` of the platform's libc (1024 on Linux); `maxLevel` is the most detailed level of log
records that is compiled in (Cargo features `max_level_*` and `release_max_level_*` of slog; by default `debug` in
debug builds and `info` in release builds; sample/Makefile:18 asks for `trace`). -/
structure Rt where
  euid      : Nat
  egid      : Nat
  debug     : Bool
  parseIp   : Bytes → Option Bytes
  fdSetSize : Nat
  maxLevel  : Audit.Level

end SudoPair
