# Formal model of square/sudo_pair in Lean 4

## 1. Approach

The plugin is a small state machine (sudo callbacks) around a sequential program that talks to the
operating system.  The model has three layers.

1. **Pure core** (`Verif/Model/*`): option-vector parsing, integer/bool/list parsing, UTF-8
   validation, path algebra, version words, the template language, command reconstruction and the
   exemption decision.  Ordinary total functions on `List UInt8`, `Nat`, `Int`, `Option`.
2. **Effectful code** as programs in a small monad `M` (`Verif/Model/Os.lean`).  A run is driven by a
   *schedule*: a finite list of answers, each answer being a function that replies to *whatever*
   system call comes next (`Answer = (c : Sys) → Resp c`).  The run yields an outcome (`ok`, `panic`,
   `killed`) and the *history* of system calls with their replies.  When the schedule is exhausted
   the process is `killed`; hence "for all schedules" ranges over all OS behaviours **and** all crash
   points (a crash after k calls is the schedule cut at k) and over processes that block forever.
   No assumption is made about the OS unless a theorem names it as a hypothesis.
3. **Callback state machine** (`Verif/Model/Core.lean`): the two process-global slots (environment and
   plugin) and one step function per callback of `core.rs`, including `catch_unwind`.

Specifications are in `Verif/Spec/*` and are written without the model's helpers; property theorems
are in `Verif/Props/*`, helper lemmas in `Verif/Lemmas/*`.  Reasoning about `M` uses a weakest
precondition calculus (`wp`) that universally quantifies over schedules.

## 2. Trusted base

* Lean 4.33.0 kernel; axioms at most `propext`, `Classical.choice`, `Quot.sound` (see section 6).
* The faithfulness of the model to /repo, by reading (every definition cites file:lines).
* The semantics given to the Rust standard library and libc pieces the code calls: `HashMap`,
  `str::from_utf8`, integer `FromStr`, `str::split`, `Path` components/join/parent/equality,
  `Write::write_all`, `UnixListener::bind` (socket+bind+listen), `catch_unwind`, drop order.
* Not modelled: the system calls of slog's drains, and whether a record handed to a drain arrives, aliasing
  rules of the `unsafe` code and changes of sudo's memory during a callback (reading sudo's arguments
  from memory is Model/Ffi; the other models take the decoded arguments), real time, kernel internals beyond the replies in the history,
  what Rust's panic hook writes to standard error when something panics (neither crate sets a hook), the
  `conversation` function (stored, never called), `IpAddr` parsing (an arbitrary function `parseIp`; for C89 and
  C36_alone it is `ipAddr` of Model/Ip, written after std's core/src/net/parser.rs as of Rust 1.53, from memory).
* Simplifications of the OS: one SIGINT disposition; `accept` is retried by std on EINTR, so only its
  final answer appears; `bind` is socket+bind+listen with a reply for "file created, listen failed";
  permission checks use the owner/group/other bits only (no ACLs, no capabilities other than uid 0);
  a failing `printf` is taken to have shown nothing; writing to a pair that has gone fails where SIGPIPE is ignored, and
  where it is not the process is `killed` there (the plugin leaves SIGPIPE as sudo set it).  The file-system facts that theorems need
  (truthful `stat`/`umask` replies, what a successful `chown` does) are hypotheses of those theorems.
* sudo's front end is an assumption, used only by C59, C76, C77, C84 and C85 (Spec/Frontend): it starts the command only if
  `open` returned 1 and passes data on only if the log callback returned 1.
* Other processes, used only by C67, C69, C73 and C76 (Spec/World, Spec/Search, Spec/Together, Spec/Scene): they do what the owner/group/other bits allow to the socket and its
  directory, at any time; the directory and its ancestors are not replaced; a new file takes the creator's uid, any
  group, and the mode left by the umask; connections are accepted in the order in which they were made.
* The terminal of the pair, used only by C83 and C84 (Spec/Screen): lines without end, printable ASCII, line feed with
  carriage return, CR, backspace, `ESC [ K` and sequences without an effect on the text; it is cleared before the prompt
  comes.  C84_follows is about any terminal at all; C84_screen adds a size, set by `ESC [ 8 ; rows ; columns t`, to this one
  (Spec/Follow).
* The tags and `Defaults` of sudoers about logging, and the `iolog_*` keys that the policy plugin makes of them, used only by C87 (Spec/Sudoers).
* A terminal's keys and `stty`, used only by C88 (Spec/Tty): line buffering, echo, and the characters that send signals; no editing of lines, no translation of characters.
* The words of a shell command, used only by C86 (Spec/Shell): blanks, single quotes, and characters that mean themselves.
* The approval script is modelled command by command; bash arithmetic is an arbitrary function from
  the shell's variables and a text to a list of executed commands, a value and the variables afterwards,
  constrained only (where a theorem says so) to read decimal numbers.  Scopes and the attribute `-r` are
  left out: the script itself uses the numbers it has assigned, which are read-only.  Output of command substitutions is taken without its trailing newlines;
  failures of `stty -g` and of the commands in the trap are ignored, failures of the other commands end
  the script as `errexit` demands.

Which code is modelled:

| /repo file | model |
|---|---|
| sudo_pair/src/lib.rs (all of `SudoPair`, `PluginOptions`) | Model/Pair |
| sudo_pair/src/socket.rs | Model/Socket |
| sudo_pair/src/template.rs | Model/Template |
| sudo_pair/src/errors.rs (display strings, status mapping) | Model/Pair, Model/Core |
| sudo_plugin/src/core.rs, macros.rs, plugin/io_state.rs, plugin/io_plugin.rs | Model/Core for sudo_pair, Model/Framework for an arbitrary plugin; Model/Ffi for the raw pointers |
| sudo_plugin/src/plugin/io_env.rs | Model/Env, Model/Ffi |
| sudo_plugin/src/options/*.rs | Model/OptionMap, Model/Options, Model/Parse, Model/Ffi |
| sudo_plugin/src/output/*.rs | Model/Print |
| sudo_plugin/src/errors.rs | Model/Parse, Model/Print, Model/Core |
| sudo_plugin/src/version.rs, sudo_plugin-sys version macros | Model/Version |
| exported tables: macros.rs, sudo_plugin-sys/src/lib.rs `empty()`, bindings `io_plugin`, `approval_plugin`, `policy_plugin` and `audit_plugin` | Model/Table |
| log records of lib.rs (every slog call, with level, text and keys) | Model/Audit, a copy of Model/Pair and Model/Core with records; C66_erase ties the two |
| closing of descriptors by drop glue (listener, connection, terminal) | Model/Handles, a copy of Model/Socket, Model/Pair and Model/Core with every `close(2)`; C78_erase ties the two |
| texts of log values (to_string_lossy, {:?} of the arguments and of the options, {:#06o}) | Model/LogText; which characters count as printable is a parameter, and the order in which a set of gids is visited is arbitrary (`OptionsShown`). Not modelled: absent values, the line format of the drains |
| where records go (`slog`, Cargo features, level of the build) | Model/Drain, on top of Model/Audit; C81_unaffected ties it to Model/Core. A build with neither feature does not compile (`o!` is not imported, lib.rs:768); it is taken to discard |
| parameter lists of core.rs, IoEnv::new and the example plugin | Model/Abi, for 64-bit and 32-bit targets: an argument is a word, an int its lower 32 bits |
| unit tests of option_map.rs and template.rs | Model/UnitTests: replayed on the model, as a check of the model |
| std `Path`, `write_all`, `FromStr`, `from_utf8` (as used) | Model/Path, Model/Os, Model/Bytes, Model/Parse |
| sample/bin/sudo_approve, examples/raw_plugin_api | Model/Extras; Model/Status for the exit status of the script |
| sample/etc/sudo_pair.prompt.* | Model/SamplePrompts |
| the recipe `install` of sample/Makefile: variables, places, modes, the line for sudo.conf; the files of the Debian package | Model/Install; the directories that files go into are taken to exist, symbolic links are not followed (`/var/run` is compared as text), and sudo is taken to split the line at single blanks. The rule that compiles is not modelled |
| the rest of the sudo_plugin-sys bindings, packaging (the rest of contrib, sample/Makefile and Dockerfile) | not modelled |

## 3. Properties and how they are modelled

| id | model | proof plan |
|----|-------|-----------|
| C01 | `Core.open` over `M`, history spec `Approved` | wp over whole handshake. False as stated for a command path that is not UTF-8 (treated like `sudo -V`): prove `_partial` under "command non-empty and UTF-8" plus a counterexample |
| C02 | callback state machine | invariant over all call sequences |
| C03 | `remote_pair_prompt`, `remote_pair_connect` | wp |
| C04 | `isExempt` | iff with independent `Spec.Exempt` |
| C05 | `SudoPair.open`, `log_*` | wp; history empty |
| C06 | `isExempt`, `PluginOptions::from`, `open` | corollary of C04; also for `open` with option vectors that differ in one gid option (`C06_open_*`), and `C06_append`: writing `,n` behind a value adds n. Giving `gids_enforced` a first value is not an addition: it replaces the default gid 0 (example in Props/Configured) |
| C07 | `SudoPair.open` | wp; counterexample when the group name is not UTF-8 (option silently ignored), hence `_partial` |
| C08 | `Core.*` | case analysis on outcome |
| C09 | `IoEnv.new`, `Core.open` | per-key theorem |
| C10 | `Version`, `Core.open` | arithmetic + wp |
| C11,C12 | `Socket.open`; spec automaton computing the socket inode from the history, POSIX DAC | wp with invariant over all history prefixes |
| C13,C14 | `Socket.open` | wp on history; counterexample through the panic path (`fd ≥ FD_SETSIZE`) |
| C15 | `Socket.unlink` | wp |
| C16 | `enforce_ownership` | bit reasoning; counterexample: `S_IFDIR` bit test accepts block devices and sockets |
| C17 | `socketPath` | decimal injectivity, path algebra |
| C18,C19,C20,C21,C22 | `log_*` | wp, induction over call sequences; C21 is false without the stdin hint: `_partial` + counterexample |
| C23,C24,C25,C49 | callback state machine | invariants; C49 false for a second `open` without `close`: `_partial` + counterexample |
| C26,C27,C28 | `Template.expand` | refinement to a token-level spec |
| C29–C34,C52 | option parsing | refinement to specs |
| C35 | version words | arithmetic |
| C36 | `NetAddr` | false: exact characterisation of the panic + counterexample |
| C37,C38 | `invocation`, `flags` | list reasoning; C38 false: counterexample + `_partial` |
| C39 | `runasGids` | set equality |
| C40 | `PrintFacility` + C `printf` format semantics | false for `%`: `_partial` + counterexample |
| C41 | `write_error` | false for errors with a cause: divergence theorem; `_partial` |
| C42,C43,C44 | `ctrl_c_aborts_syscalls`, `write_all` | wp, induction |
| C45 | `local_pair_prompt` | wp |
| C46 | `socketMode` | exact characterisation + counterexample |
| C47 | `Path.components` | equivalence with a rewriting relation |
| C48 | `sudo_approve`, command by command | case analysis; counterexamples: forged `SUDO_UID`, arithmetic evaluation of arguments (commands, assignments) |
| C50,C51 | `isExempt` in debug/release | case analysis; counterexample for C51 |
| C53 | `deny_everything` | invariant |
| C54 | `SudoPair.open` | monitor automaton over the history |
| C55 | all callbacks | bound on the length of every history, by induction on the loops |
| C56 | `show_version` | all states; text read off the printf calls |
| C57 | `sudo_approve` and `socketPath` | composition of the script model with the plugin's path |
| C58 | generic callbacks over an arbitrary plugin | case analysis per callback, invariant over histories; the text of a report of an error is followed through printf's interruptions and partial writes (Spec `Says`, `Complains`); sudo_pair is the instance |
| C59 | callbacks composed with sudo's front end | invariant over the interleaved actions, all prefixes |
| C60 | reading of C strings, vectors and buffers from a partial memory, of a 64-bit or a 32-bit target | partial correctness of the loops, induction |
| C61 | built-in and shipped prompts | C28 on concrete templates with arbitrary values |
| C62 | approval script: identity taken | octal round trip; exact command list; composition with the plugin's socket mode (C46) and a second run (C57) |
| C63 | all callbacks, whole histories | equality with an independent state machine (Spec/Protocol), by simulation on the length of the schedule; contexts (`Around`) carry a call through binds, `catch_unwind` and drop glue |
| C64 | `IoEnv.new` failing | first unmet demand in a list of demands; equivalences for message, crash and acceptance |
| C65 | exported tables | `repr(C)` layout for any pointer size dividing 8, against the member list of the header; call through a slot = framework step |
| C66 | records of the log, interleaved with the system calls | erasure to the model of the other claims; inversion of every run; `Story` (Spec/Audit) lists the possible logs; counting over histories |
| C67 | the approval socket among other processes | `World`, `Deed`, `Site` (Spec/World): events of the plugin interleaved in any way with actions of any processes within POSIX permissions; invariant over the phases of C54 from the inspection of the directory (C16) to `accept` |
| C68 | `open`, verdict | the machine of C63: an invariant linking history and phase (`Inv`), closed sets of doomed and lost phases, and a chain of answers for possibility; the mishaps are defined on events alone (Spec/Refusal) |
| C69 | the socket directory | C67 with the search permission of the directory (Spec/Search); the directory stays as inspected unless an insider changes it |
| C70 | texts in the log | lossy decoding against Unicode's substitution of maximal subparts (Spec/LogText); the rest is injectivity of the rendering; identical records come from sessions that read the same, and identical options exempt the same sessions (Props/LogOptions) |
| C71 | plugin tables | C65 for arbitrary tables of all four kinds; member names and their order are copied from the header (Spec/Table) |
| C72 | calls from C | sudo's side: parameter names in the order of the header (Spec/Abi); composes C60 (memory), C65 (slots) and C58 (the instance for sudo_pair) |
| C73 | sessions at the same time | `Bustle` (Spec/Together): the events of C67 and those of any number of other plugin processes; a call that alters a file names the socket of one of the caller's own sessions (C54, induction over the callbacks), and socket names are injective (C28), so the others drop out and C67 applies |
| C74 | what the plugin depends on | relational simulation (`Mirrors`) of two processes with the same schedule whose vectors agree on the listed keys; the same again for the logging version (`LMirrors`), where the records are part of what is compared; minimality by one pair of sessions per key |
| C75 | all records of the log | `Course` (Spec/Transcript) lists the four complete logs of `open`; inversion of every run of the logging model; trace invariants closed under sequencing for the recorded answer (`Echoed`) and the counts |
| C76 | a session with all its surroundings | `Scene` (Spec/Scene): one order of time of sudo's front end with the plugin, processes without it, and any number of other sessions; C59 (front end), C67 (who connects) and C73 (other sessions) put together |
| C77 | where the data of a session goes | `Discreet` (Spec/Discreet) lists what a callback may do; every event of every run satisfies it, with the stored connection and the payload of that call |
| C78 | descriptors | `play` (Spec/Handles) is an automaton over traces that allows only proper use; a Hoare-style predicate `Safe` composed over every function; what is left open is the stored connection, traced back to its approval |
| C79 | `PluginOptions::from`, `open` | each option by C32 (last value, default); the words of a configuration have distinct keys, so their order is irrelevant; decimal lists denote themselves. That sudo passes the words of the line on as they are is assumed. |
| C80 | exit status of `sudo_approve` | Model/Status is a copy of the script's model with statuses (C80_commands: same commands); `Tells` relates status and commands and holds of every piece; chains of runs by induction (`Finished`, Spec/Status). That a failing command of the trap changes the status follows bash 5.2 with `errexit`. |
| C81 | where log records go | a callback of Model/Drain is one of Model/Audit whose records are sent (`step_audit`); invariant `Has` for histories; composed with C66_erase_run and C66_accountable |
| C82 | installation | places reduced to directories by `same_child` and `same_root` on the components of paths (C17's path theory); options by C79_options; sessions by C05_open and the gate of C01 |
| C83 | what the pair sees of the prompt | a terminal of a few control functions (Spec/Screen); typing printable text appends it, by induction; the forgery wipes the line with CR and `ESC [ K`. Composed with C61 and C01 |
| C84 | the pair's terminal follows the user's | what has arrived is the payloads of the callbacks passed on and a piece of one more, by induction over the running session (`running_piece`); typing payloads is what the callbacks do to a terminal that takes its resizes, by induction; for the concrete terminal a simulation (`SameBelow`) |
| C85 | when the loss of the pair is noticed | a callback with nothing for the pair is `pure` (`step_quietly`); one that returns 1 delivered its payload; induction over the running session, cut between callbacks |
| C86 | the command the user passes on | words of the text, by induction over plain words; composed with C61 and C57 |
| C87 | the commands chosen in sudoers | semantics of sudoers' tags, induction over specifications; composed with C52, C05, C01, C21 |
| C88 | the approver's terminal | shape of the script's commands, by its structure; `stty` as a fold over them; composed with C80's runs and the definition of approval |
| C89 | network addresses | each reader of std's parser is an equivalence with its piece of the grammar: digits by the longest run, IPv4 by four numbers, groups by induction (soundness, and completeness for each end of a part); IPv4 is tried first, which loses nothing as no IPv6 text begins with an IPv4 one |

## 4. Findings (disagreements between documented behaviour and code)

Each is a theorem; the `_counterexample` theorems exhibit the failing run, the `_partial` theorems prove
the claim outside of it, and the `_boundary` theorems (Props/Boundary, Props/Edges) say exactly when the claim holds
(C46 has `C46_undefined_iff` for this).

| # | finding | theorem |
|---|---|---|
| 1 | A `command` that is missing or not UTF-8 decodes to the empty path, which `open` takes for `sudo -V`: it returns 1 without pairing (log callbacks then refuse, but no callback is due for a silent command). | C01_counterexample, C05_counterexample |
| 2 | A group name that is not UTF-8 is treated as no `-g`: the `-u`/`-g` rejection is skipped. | C07_counterexample |
| 3 | gid 4294967295 is "unchanged" for chown(2): the socket keeps the creator's group. | C11_counterexample |
| 4 | A panic inside `Socket::open` (descriptor ≥ FD_SETSIZE) leaves umask 0777 and the socket file. | C13_panic_keeps_umask, C14_panic_leaves_socket |
| 5 | The directory test checks one bit (040000) of the file type, which block devices and sockets also have. | C16_counterexample |
| 6 | The echo of the reply ignores write errors, so an approved session may miss it. | C18_counterexample |
| 7 | Terminal input is never mirrored although its hint is set. | C20_counterexample |
| 8 | With the stdin hint off, piped input is accepted. | C21_counterexample |
| 9 | One malformed element of `gids_enforced` silently reverts the option to gid 0 only. | C33_counterexample |
| 10 | `network_addrs` panics at an element that is a valid address without `/`. | C36_counterexample, C36_panic_iff |
| 11 | Arguments are joined by spaces without quoting: different invocations look alike. | C38_counterexample |
| 12 | Text for the user is passed to sudo's printf as the *format*: `%` in command, host, … is interpreted; `%%ab` shows as `%abb`; a field width makes printf return more than the length, and `write_all` panics, refusing the session. | C40_counterexample, C45_counterexample |
| 13 | `write_error` loops forever on an error with a cause (no error of the two crates has one). | C41_never, C41_counterexample |
| 14 | If reinstalling the SIGINT action fails after the last chunk, complete delivery is reported as failure. | C44_counterexample |
| 15 | `unreachable!` in `socket_mode` is reached if the policy changes only the group without `-g`; the panic is caught and open refuses. | C46_counterexample |
| 16 | `sudo_approve` trusts `SUDO_UID` and evaluates its arguments as bash arithmetic (`a[$(cmd)]` runs cmd; `SUDO_UID=0,1000` changes the uid it compares with), while that command is exempt from pairing. | C48_counterexample |
| 17 | A second `open` without `close` is judged by the first one's environment. | C49_counterexample |
| 18 | The "sudoing to themselves" exemption ignores the supplementary groups and the real uid in release builds. | C51_counterexample |
| 19 | `show_version` prints the version of the crate sudo_plugin (default of a trait constant). | C56_shown |
| 20 | The script's socket directory is fixed, so another `socket_dir` is not reached. | C57 |
| 21 | Interrupted writes of the pair prompt are retried (Ctrl-C has no effect there). | C43 note |
| 22 | A non-socket found at the final unlink is ignored. | C15 note |
| 23 | A `close` that panics leaves the environment stored, so that a later `open` is judged by it. | C58_panicking_close |
| 24 | `argv` NULL is undefined behaviour even with `argc` 0; so is a negative `argc` (sudo passes neither). | C60_argv_undefined |
| 25 | The shipped user prompt advertises approving one's own session, which the shipped script refuses. | C61, C48_own_partial |
| 26 | A session whose pair never connects, or whose connection fails, has no closing record: the log ends with "waiting" or "connected". Rejected arguments and `sudo -V` leave no lasting record. | C66_story, C66_rejected, C66_silent |
| 27 | A session dropped by a second `open` is never recorded to end. | C66_balance and the example after it |
| 28 | The target user owns the approval socket, so it may open it to everybody, the invoking user included, without approving anything itself. | examples after C67_not_alone |
| 29 | A session with the user's own uid and another group chosen by the policy (no `-g`) can never be approved, by anybody; the refusal comes from a panic, without any message of the plugin's own. | C68_possible and the example after it, C46_undefined_iff |
| 30 | README and Makefile create the socket directory with mode 0644: the plugin accepts it, but only root can reach a socket in it, and `sudo_approve` fails for everybody else. The Debian package uses 0755. | C69_closed, C69_script |
| 31 | The log shows the arguments escaped but the command as it is: line breaks, commas and quotes in the path of the command are part of the record. Bytes that are not UTF-8 look alike in both. | C70_command |
| 32 | A session with nobody to ask (neither a target user nor a target group that differs) crashes; the log of a build without debug records (release builds by default) nevertheless ends with "socket waiting for pair to connect...", the log of the others does not, because only there the arguments of the preceding debug record are computed. | C66_nobody |
| 33 | A value for `gids_enforced` replaces the default: the Makefile's line `gids_enforced=<gid of nogroup>` ends the enforcement for root. The empty value in the sample sudo.conf cannot be read and means the default, gid 0. | C79_makefile, examples in Props/Config and Props/Configured |
| 34 | README, make_deb_pkg.sh and sudo_pair.spec name sample/etc/sudo.prompt.{user,pair}, which do not exist, and install them where the plugin does not look by default; the packages install libsudo_pair.so, the sample sudo.conf loads sudo_pair.so. | C82_debian, C82_readme, C82_rpm |
| 35 | If syslog cannot be reached when a session begins, none of its records goes anywhere, even if it can be reached later; the session is approved and runs all the same. | C81_unreachable, C81_kept, C81_unaffected, and the examples after C81_accountable |
| 36 | A build with neither `syslog` nor `journald` does not compile: lib.rs:768 uses a macro `o!` that is not imported. | by reading |
| 37 | `make install` with its own defaults (prefix /usr/local) puts the script, both prompts and the socket directory where the plugin, with the line that the same recipe writes, does not look; no single `prefix` can help. Running the misplaced script through sudo needs a pair itself. The Dockerfile's `prefix= exec_prefix=/usr` agrees. | C82_defaults, C82_one_prefix, C82_script |
| 38 | The Cargo feature `change_winsize` (sudo_pair/Cargo.toml:22-23) is not mentioned in any `cfg` and has no effect. In sample/Makefile, `export` stands on a recipe line of its own (line 38), in a shell of its own, and so has no effect on cargo; the target libsudopair.so (lines 24, 26, 37) is never created, so the plugin is compiled at every `make`. | by reading |
| 39 | sudo_plugin-sys/build.rs chooses the bindings by `cfg(target_arch)`, which in a build script is the architecture of the host, so that cross-compiling takes the host's file; and on any other architecture than the three it does not compile. The three files are the same but for their layout tests and the comment that names the generator, so only those tests are affected. | by reading |
| 40 | The Debian package's postinst sets /usr/lib/sudo, a directory of sudo's own package, to mode 644, and goes on to chmod prompts that the package may not hold. | by reading |
| 41 | The prompt for the pair contains the command line as it is, control characters included: for every session, and any arguments really meant, one more argument suffices for the pair's terminal to show any other command line instead. | C83_forged and the example after C83_asked |
| 42 | A resize is sent to the pair in the middle of the output. If the last piece of output ended within a control sequence, that sequence is broken off on the pair's terminal and its rest shown as text, so that the pair sees other text than the user. And the size of the user's terminal at the start is not sent at all (only %H and %W of the prompt show it): until the first resize the pair's terminal keeps its own. | C84_counterexample and the example after it |
| 43 | The shipped prompt says that the command is terminated immediately when the pair leaves. The plugin learns of it only when it next has something to send: a command without output goes on, and the user's keys reach it. | C85_goes_on, C85_iff |
| 44 | The shipped prompt for the user quotes the whole approval command, so that `docker exec` is given one word and looks for a program of that name. | C86_shipped |
| 45 | The README says that sessions cannot be piped to. With the sudoers of either of its examples, or the shipped one, they can: `log_output` alone leaves the hint for standard input off, and the framework does not ask the plugin. `log_input` is needed as well. | C87_piped, C87_refused and the examples in Props/Sudoers |
| 46 | The approval script disables Ctrl-C on the approver's terminal, but not the keys for quit and suspend: a suspended `socat` keeps the connection, and the session goes on unseen for as long as the kernel takes its output. If `stty -g` fails the terminal is left without echo. | C88_quit_suspend, C88_unread |

## 5. How the theorems were tested

`seeded/LOG.jsonl` records edits of the model in a scratch copy: the definition, the edit, the claim that
it falsifies, the theorems that stopped proving, and what was tightened.  A proof that stops is not yet a statement
that is false of the edited program: a theorem may fail here because of how it was proved, though a weak statement
would still hold (R19 and R20 before commit 72c08a3 are examples).  The log is evidence of strength, not a proof of it;
the statements were also read against the English claims.

## 6. Axioms

* none: C81_default, C81_destination, C81_keys.
* `propext`: C06_append, C41_never, C46_defined_partial, C46_undefined_iff, C56_refused, C58_close, C72_upper, C75_close, C82_modes, C82_no_group, C82_set, C88_quit_suspend.
* `propext`, `Quot.sound`: C03_failure, C03_reply, C04_total, C08_log, C08_log_panic, C08_open, C08_open_env_panic, C08_open_plugin_panic, C08_show_version, C13_panic_keeps_umask, C14_panic_leaves_socket, C14_unlinked, C15_foreign_refused, C16_boundary, C16_counterexample, C16_types_partial, C18_counterexample, C20_counterexample, C20_hint_off, C24_close, C24_idempotent, C25_hangs_up, C26_from_map, C26_table, C26_template, C27_append, C27_append_unpaired, C27_protect, C27_tokens, C28_binary_name, C28_binary_name_literal, C29_absent, C29_append, C29_option_vector, C29_order_irrelevant, C30_signed, C30_unique, C30_unsigned, C31_bad_element, C33_counterexample, C36_counterexample, C36_panic_iff, C37_flags_ordered, C38_counterexample, C39_runas_gids, C39_total, C40_counterexample, C40_formats, C42_callback, C42_restored, C43_answer, C43_connect, C44_boundary, C44_counterexample, C44_exact_partial, C44_log_output, C44_prefix, C44_success, C45_boundary, C45_counterexample, C45_default, C45_returns_partial, C47_examples, C47_same_path, C49_boundary, C51_counterexample, C51_themselves_partial, C53_others, C54_no_session, C55_bounded, C55_files_open, C55_files_other, C56_only_prints, C58_codes, C58_instance, C58_log, C58_no_panic, C58_open, C58_panicking_close, C58_session, C58_show_version, C58_winsize, C60_log_blind, C60_log_half, C65_layout, C65_size, C66_close, C66_erase, C66_erase_run, C66_identity_later, C66_levels, C66_others, C69_open, C69_script, C71_empty, C74_needed, C75_version, C78_erase, C80_commands, C80_failure, C80_otherwise, C80_refused, C80_success, C81_open, C82_line, C82_places, C82_rpm, C87_default, C87_everything, C87_no_input, C88_answer, C88_connected, C88_keys, C88_restored, C88_runs, C88_unread, C89_bytes.
* `propext`, `Classical.choice`, `Quot.sound`: C01_approval_partial, C01_boundary, C01_counterexample, C01_first_open_partial, C02_no_unapproved_io, C03_no_reply, C04_release, C04_rule, C05_boundary, C05_counterexample, C05_logs_partial, C05_open, C06_enforced_mono, C06_exempted_mono, C06_open_enforced, C06_open_exempted, C07_boundary, C07_counterexample, C07_rejected_partial, C08_no_panic, C09_accepted, C09_refused, C10_check, C10_check_components, C10_refused, C11_boundary, C11_counterexample, C11_reachable_partial, C12_boundary, C12_no_self_approval_partial, C13_callbacks, C13_umask_restored, C14_callbacks, C15_removals, C16_parent, C16_vetted_partial, C17_injective, C17_literal, C17_path, C17_prompt, C18_boundary, C18_callbacks, C18_prefix, C18_session_partial, C19_output, C20_boundary, C20_hint_on_partial, C21_boundary, C21_counterexample, C21_stdin_refused_partial, C22_injective, C22_resize, C23_log_refused, C23_show_version_refused, C24_silent_afterwards, C28_percent, C28_variables, C30_prints, C30_signed_roundtrip, C30_unsigned_roundtrip, C31_ids, C31_list, C31_nonempty, C32_determined, C32_malformed_exempted, C32_plugin_options, C32_session, C33_boundary, C33_enforced_partial, C33_malformed, C33_session_partial, C34_utf8, C35_ge, C35_monotone, C35_pack_unpack, C35_sys_roundtrip, C35_unpack_pack, C36_alone, C36_boundary, C36_no_panic_partial, C37_arguments_suffix, C37_exact, C37_shows_everything, C38_boundary, C38_injective_partial, C40_boundary, C40_error_partial, C40_errors_of_sudo_pair, C40_line_partial, C40_verbatim_partial, C40_version, C41_boundary, C41_counterexample, C41_ends_partial, C41_terminates_partial, C42_always, C42_during, C43_mirror, C43_mirror_prefix, C45_irrelevant, C45_text, C46_counterexample, C48_boundary, C48_counterexample, C48_no_code, C48_own_partial, C49_counterexample, C49_fresh_partial, C50_alike, C50_callback, C50_consistent, C50_history, C50_trips, C51_boundary, C51_open_partial, C52_command_info, C52_determined, C52_environment, C52_exact, C52_settings, C52_settings_succeeds, C52_user_info, C52_user_info_succeeds, C53_denies, C53_version, C54_complete, C54_order, C55_cut, C55_ends, C55_stable, C55_two_files, C56_shown, C57_connects, C57_same_socket, C59_no_stdin, C59_pair_sees_first, C59_shown, C60_argv, C60_argv_undefined, C60_buffer, C60_env, C60_env_only, C60_log, C60_log_undefined, C60_open, C60_satisfiable, C60_string, C60_vector, C60_version_first, C61_default_pair, C61_default_user, C61_identifies, C61_sample_pair, C61_sample_user, C62_escalates, C62_reaches, C63_exact, C63_history, C63_never_panics, C63_total, C64_accepted, C64_complaint, C64_crash, C65_deny, C65_dispatch, C65_rest, C66_accountable, C66_balance, C66_exempt, C66_identity, C66_messages, C66_nobody, C66_reason, C66_rejected, C66_silent, C66_story, C67_approved, C67_not_alone, C67_peer, C68_possible, C68_refused_iff, C69_closed, C69_peer, C70_args, C70_args_read, C70_args_recorded, C70_command, C70_lossy, C70_lossy_inj, C70_numbers, C70_octal, C70_one_line, C70_options, C70_options_exists, C70_options_line, C70_options_read, C70_options_recorded, C70_options_rule, C70_options_text, C70_read_once, C70_records, C70_same, C70_text, C71_layout, C72_call, C72_deny, C72_sudo_pair, C73_approved, C73_files, C73_not_alone, C73_peer, C73_undisturbed, C74_depends, C74_log, C74_user_env, C75_answer, C75_lifecycle, C75_log, C75_none, C75_open, C75_winsize, C76_alone, C76_consent, C76_nothing_before, C77_exempt, C77_log, C77_session, C78_closed, C78_proper, C78_refused, C78_session, C79_makefile, C79_open, C79_options, C80_connected, C81_accountable, C81_begins, C81_history, C81_kept, C81_unaffected, C81_unreachable, C82_debian, C82_defaults, C82_found, C82_one_prefix, C82_options, C82_readme, C82_script, C83_apart, C83_asked, C83_default, C83_forged, C83_sample, C84_counterexample, C84_follows, C84_screen, C84_takes, C85_goes_on, C85_iff, C85_nothing_unseen, C85_noticed, C86_connects, C86_default, C86_shipped, C87_exempt, C87_hints, C87_opt_in, C87_opt_out, C87_paired, C87_piped, C87_refused, C87_unpaired, C89_address, C89_all, C89_crash, C89_documented, C89_list, C89_refused, C89_unique.

No theorem depends on any other axiom.

## 7. Index of files

Generated by tools/mkindex.py.

Specifications:

* Spec/Abi: How sudo calls a plugin: by the prototypes of include/sudo_plugin.h.
* Spec/Approval: What it means that a pair approved a session, as a property of the history of system interactions.
* Spec/Audit: What the log is to tell about a session: the records of level `info` and above (those that release builds emit), in between the interactions with the system.
* Spec/Config: The configuration of the plugin as an administrator writes it behind the names of the plugin in sudo.conf (README, section `/etc/sudo.conf`; sample/etc/sudo.conf:11; sample/Makefile:35).
* Spec/Depends: What of sudo's input the plugin takes notice of: the keys of the four vectors that have an influence on what it does.
* Spec/Discreet: Where the data of a session may go.
* Spec/Drain: Where log records are to go.
* Spec/Effort: How much a history did.
* Spec/Environment: What each typed field of the environment means in terms of the vectors that sudo passes to `open` (sudo_plugin(5), "user_info", "command_info", "settings").
* Spec/Extras: Who runs the approval script, and histories of the example plugin.
* Spec/Ffi: sudo's side of the contract: how arguments lie in memory (sudo_plugin(8); option_map.rs:43-53, io_env.rs:98-102).
* Spec/Follow: Two terminals: the user's, to which sudo passes the output of the command and which somebody resizes, and the pair's, to which sudo_approve hands what it receives (sample/bin/sudo_approve:32-43).
* Spec/Framework: What the crate sudo_plugin promises to sudo for any plugin (io_plugin.rs and core.rs doc comments).
* Spec/Frontend: The sudo front end, as far as the plugin API documents it (sudo_plugin(8), quoted in sudo_plugin/src/core.rs:30-84 and sudo_plugin/src/plugin/io_plugin.rs:65-200): `open` is called before the command starts, and the command is started only if it returns 1; every piece of output or input is handed to the log callback first and passed on only if that returns 1; anything else ends the session.
* Spec/Fs: What the operating system does with the approval socket on disk: a small model of POSIX file creation, ownership and permission checks.
* Spec/Handles: Correct use of descriptors (C78), stated over the trace alone: which descriptors of the plugin are open, and what may be done with each.
* Spec/Input: The input the plugin requires from sudo.
* Spec/Install: Whether an installation is where the plugin looks for it.
* Spec/Ip: How addresses are written: four decimal numbers with dots between them (RFC 6943, section 3.1.1, strict form), and the notation of RFC 4291, section 2.2.
* Spec/Local: What the invoking user sees on the terminal.
* Spec/LogText: Reading bytes as text when they need not be UTF-8 (Unicode Standard, section 3.9, "Substitution of Maximal Subparts").
* Spec/Loss: The connection to the pair is lost (the pair closes their terminal, types Ctrl-D, or their network fails; sample/etc/sudo_pair.prompt.pair:7): from then on the kernel accepts nothing that is written to it.
* Spec/Mirror: What the pair is supposed to see of each callback.
* Spec/Order: The order in which `open` interacts with the system, as an automaton over the history.
* Spec/Path: When two Unix path strings are spellings of the same sequence of components.
* Spec/Printf: What a C `printf` shows when it is called with a format string and no further arguments.
* Spec/Protocol: What each callback does, as a state machine: in every phase there is exactly one interaction with the system, or the callback is over.
* Spec/Refusal: What can go wrong while a pair is asked: the replies of the system that make the session be refused, given what has happened before.
* Spec/Rejection: Which arguments of `open` are rejected, and what the user is told about them.
* Spec/Scene: Everything at once: sudo's front end (Spec/Frontend) with the plugin, in one process; other processes acting on the socket and its directory (Spec/World); and other sudo sessions with the plugin (Spec/Together).
* Spec/Screen: A terminal, as far as it matters for the prompt of the pair.
* Spec/Search: Reaching the approval socket through its directory: besides the write permission for the socket, `connect(2)` needs the search permission for the directory (path_resolution(7)).
* Spec/Session: When a session is exempt from pairing, according to the documentation (README "Exemptions" and sudo_pair/src/lib.rs:402-455); stated on the data only.
* Spec/Shell: How a shell reads a command of characters that mean themselves, blanks and single quotes (POSIX.1-2017, Shell Command Language, 2.2.2 and 2.3).
* Spec/Signal: The disposition of SIGINT during a history.
* Spec/Status: The exit status of a command line that is a script which may start itself through sudo.
* Spec/Sudoers: The part of sudoers(5) that the README (section `/etc/sudoers`) tells administrators to use for choosing the commands that are paired, and what the policy plugin tells the other plugins about it (sudo_plugin(5), `iolog_*`).
* Spec/Table: What the C header include/sudo_plugin.h prescribes: where sudo looks for each member.
* Spec/Template: The documented prompt-template language, independently of the expansion code.
* Spec/Text: Independent specifications of how sudo's textual input is to be read.
* Spec/Together: Several sudo sessions at the same time.
* Spec/Trace: Observations on histories of system interactions: what was delivered to whom, what failed.
* Spec/Transcript: The complete log of a session, with the records of all levels.
* Spec/Tty: A terminal: what it does with the keys that are pressed, and what `stty` does to it.
* Spec/World: The approval socket among other processes: the directory of the socket, the socket file, who has connected to it, and what the plugin's process and any other process may do to them.

Theorems, with the claims they are about:

* Props/Abi: C72: a call from C reaches the callback's code with every argument in its place. [C72]
* Props/Audit: C66: what the log tells about a session. [C66]
* Props/Boundary: Claims that are false as stated: exactly where they hold. [C01 C05 C07 C11 C12 C16 C20 C21 C33 C36 C40 C41 C44 C45 C49]
* Props/Builds: C50, C51, C33 at the level of callbacks and whole histories: debug and release builds. [C33 C50 C51]
* Props/Command: C37, C38: the command line shown to the pair (`%C`). [C37 C38]
* Props/Config: C79: configurations as the documentation describes them. [C79]
* Props/Configured: C06 for the option vectors that sudo passes on, and for what `open` does. [C06]
* Props/Depends: C74: what the plugin's behaviour depends on. [C74]
* Props/DependsLog: C74 for the log: what the records depend on. [C74]
* Props/Discreet: C77: what a session shows goes to the pair, and to nobody else. [C77]
* Props/Drain: C81: where the log records go, and that nothing depends on it. [C81]
* Props/Edges: Claims that are false as stated, continued from Props/Boundary: exactly where they hold. [C18 C38 C48 C51]
* Props/Effort: C55: every callback ends, after a number of interactions bounded in terms of its inputs; C41. [C41 C55]
* Props/EndToEnd: C76: from the consent of the pair to what the user gets to see, with sudo's front end, other processes and other sessions all at once. [C76]
* Props/Escalate: C62: which identity the approval script takes when its caller may not write to the socket. [C62]
* Props/Exempt: C04, C06, C39, C46, C50, C51: the exemption decision. [C04 C06 C39 C46 C50 C51]
* Props/Extras: C48, C53, C56, C57: the approval script, the example plugin, and the version callback. [C48 C53 C56 C57]
* Props/Ffi: Reading sudo's arguments from memory: C60. [C60]
* Props/Follow: C84: what the pair sees of a session: their terminal follows the user's. [C84]
* Props/Framework: The crate sudo_plugin for any plugin: C58. [C58]
* Props/Frontend: The plugin together with sudo's front end: C59. [C59]
* Props/Gate: The `open` callback: C01, C03, C05 (open), C07, C08 (open), C09, C10, C25. [C01 C03 C05 C07 C08 C09 C10 C25]
* Props/Handles: C78: descriptors. [C78]
* Props/Install: C82: what `make install` installs, and whether the plugin finds it. [C82]
* Props/Ip: C89: which texts are read as addresses, and what that means for `network_addrs`. [C36 C89]
* Props/Local: C45: the local prompt. [C45]
* Props/LogOptions: C70, continued: what the log shows of the plugin's options. [C70]
* Props/LogText: C70: what the log shows of a session. [C70]
* Props/Loss: C85: when the loss of the pair is noticed. [C85]
* Props/Mirror: What the pair sees: C05 (log callbacks), C18, C19, C20, C21, C22. [C05 C18 C19 C20 C21 C22]
* Props/Options: C32, C33, C52: typed options. [C32 C33 C36 C52]
* Props/Order: C54: the order of the interactions of `open`. [C54]
* Props/Path: C47, C17 and the path part of C16 and C28. [C16 C17 C28 C47]
* Props/Print: C40, C41, C45: messages to the invoking user. [C40]
* Props/Prompts: The built-in prompts and the shipped prompt files: C61. [C61]
* Props/Protocol: C63: every callback is exactly the documented protocol. [C63]
* Props/Refusal: C68: when a session is refused, and which sessions can be allowed at all. [C68]
* Props/Rejection: C64: which arguments of `open` are rejected, and with which message. [C09 C32 C52 C64]
* Props/Screen: C83: what the pair sees on their terminal when they are asked. [C83]
* Props/Search: C69: who can reach the approval socket through its directory. [C69]
* Props/Session: Histories of callbacks: C02, C08 (all callbacks), C23, C24, C49. [C02 C08 C23 C24 C49]
* Props/Shell: C86: the command that the user is told to pass on, as a shell reads it. [C86]
* Props/SockIo: C42, C43, C44: reading from and writing to the pair. [C42 C43 C44]
* Props/SocketFs: The approval socket on disk: who can reach it, when it exists, what is removed, what is vetted. [C11 C12 C13 C14 C15 C16]
* Props/Status: C80: the exit status of the approval script. [C80]
* Props/Sudoers: C87: the commands chosen in sudoers. [C87]
* Props/Table: C65: the exported tables are laid out as the header says, with every callback in its own slot. [C65 C71]
* Props/Template: C26, C27, C28: the prompt-template language. [C26 C27]
* Props/Text: C29, C30, C31, C34: how option vectors, integers, lists and strings are read. [C29 C30 C31 C34]
* Props/Together: C73: sessions at the same time do not disturb each other. [C73]
* Props/Transcript: The complete log (C75). [C75]
* Props/Tty: C88: the approver's terminal. [C88]
* Props/Variables: C28: the variables of the prompts. [C17 C28]
* Props/Version: C35 (and the arithmetic part of C10): sudo API version words. [C10 C35]
* Props/World: C67: who can be on the other side of the approval socket, with other processes around. [C67]
