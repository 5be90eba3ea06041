{
"C29": {
"status": "proved",
"note": "Key lookup after fromRaw is equivalent to the independent relation Spec.Value (last entry with that key)."
},
"C30": {
"status": "proved",
"note": "Parser equivalent to the decimal denotation relations, for every width; round trips."
},
"C31": {
"status": "proved",
"note": "List parser equivalent to Spec.DenotesList."
},
"C32": {
"status": "proved",
"note": "All six options, plus: malformed gids_exempted exempts nobody."
},
"C33": {
"status": "partial",
"note": "Holds when the whole list is well formed, for the decision (C33_enforced_partial) and for sessions (C33_session_partial). The full statement is false: with any malformed element only gid 0 is enforced (C33_malformed, C33_counterexample). C33_boundary is exact: enforced in full iff every element is a gid or no gid but 0 is listed."
},
"C34": {
"status": "proved",
"note": "Validator equivalent to: is the encoding of some list of scalar values."
},
"C35": {
"status": "proved",
"note": ""
},
"C36": {
"status": "partial",
"note": "False as stated: C36_panic_iff characterises the panic exactly, C36_counterexample is a witness, C36_alone says that with the parser of the standard library every address alone is one; C36_no_panic_partial is the safe case. C36_boundary states the panic on the raw option text."
},
"C52": {
"status": "proved",
"note": "Every field of the three typed structures, and exact success conditions. IpAddr parsing is a parameter."
},
"C04": {
"status": "proved",
"note": "Decision equivalent to the independent Spec.Exempt; release builds always decide."
},
"C06": {
"status": "proved",
"note": "Giving gids_enforced a first value replaces the default (gid 0) and is not an addition."
},
"C17": {
"status": "proved",
"note": "Socket path shape and injectivity on (uid, pid)."
},
"C26": {
"status": "proved",
"note": "Expansion equivalent to an inductive relation."
},
"C27": {
"status": "proved",
"note": ""
},
"C28": {
"status": "proved",
"note": "Every variable's value."
},
"C37": {
"status": "proved",
"note": ""
},
"C38": {
"status": "partial",
"note": "False as stated (C38_counterexample); C38_injective_partial is injectivity under the stated unambiguity hypothesis. C38_boundary is exact: two sessions look the same iff their words have the same pieces between spaces."
},
"C39": {
"status": "proved",
"note": ""
},
"C46": {
"status": "partial",
"note": "False as stated (C46_counterexample): unreachable! is reached when the policy changes only the group without -g. C46_undefined_iff is exact."
},
"C47": {
"status": "proved",
"note": "Path equality equivalent to an independent spelling relation."
},
"C50": {
"status": "proved",
"note": "Decision (C50_alike, C50_consistent, C50_trips: exactly which environments trip a debug assertion), each callback from every state under every schedule (C50_callback), and whole histories of callbacks when sudo obeys its documented rules (C50_history)."
},
"C51": {
"status": "partial",
"note": "False as stated (C51_counterexample): runas_groups and the real uid are ignored in release builds. C51_boundary is exact, for release and debug builds."
},
"C01": {
"status": "partial",
"note": "Proved whenever the command line decodes (C01_approval_partial), and for every first open (C01_first_open_partial). The full statement is false: C01_counterexample is an open that returns 1 unpaired because command is missing or not UTF-8. C01_boundary is exact: approved iff the command path is not empty after decoding."
},
"C02": {
"status": "proved",
"note": "Invariant over all callback histories (Exec); the approval is exhibited in the history of the open that stored the session."
},
"C03": {
"status": "proved",
"note": "Reply, failure and end-of-file cases; for every schedule."
},
"C05": {
"status": "partial",
"note": "open part in full (C05_open); log callbacks over all histories for sessions with a command path (C05_logs_partial). False for an exempt session whose command decodes to the empty path: C05_counterexample (open 1, log 0). C05_boundary is exact: the log callbacks pass everything iff the command path is not empty."
},
"C07": {
"status": "partial",
"note": "Proved when the group name is UTF-8 (C07_rejected_partial); C07_counterexample shows a non-UTF-8 group name is treated as absent. C07_boundary is exact: refused before any prompt or socket iff the value of -g is UTF-8."
},
"C08": {
"status": "proved",
"note": "All callbacks, panics mapped to refusal codes."
},
"C09": {
"status": "proved",
"note": "Refusal for every input that is not WellFormedInput, and acceptance otherwise."
},
"C10": {
"status": "proved",
"note": ""
},
"C23": {
"status": "proved",
"note": "Over all callback histories."
},
"C24": {
"status": "proved",
"note": "Over all callback histories."
},
"C25": {
"status": "proved",
"note": ""
},
"C49": {
"status": "partial",
"note": "Proved when nothing was opened since the last close. The full statement is false: C49_counterexample is a second open judged by the first open's environment. C49_boundary is exact: the new environment is stored iff none was stored before, or the same one."
},
"C18": {
"status": "partial",
"note": "Callbacks in full (C18_callbacks, C18_prefix); whole sessions up to the echo of the reply, whose write errors the plugin ignores (C18_session_partial, C18_counterexample). C18_boundary is exact: everything arrived iff the socket accepted the echo and the newline after the reply."
},
"C19": {
"status": "proved",
"note": "For every payload, facility and schedule of answers."
},
"C20": {
"status": "partial",
"note": "Hint off: nothing happens (C20_hint_off). Hint on: exact delivery for the three output facilities (C20_hint_on_partial); terminal input is never mirrored (C20_counterexample). C20_boundary: exactly what each facility sends."
},
"C21": {
"status": "partial",
"note": "Proved when the iolog_stdin hint is on (C21_stdin_refused_partial); with the hint off stdin is accepted (C21_counterexample). C21_boundary is exact: refused iff the hint is on or no pairing is stored."
},
"C22": {
"status": "proved",
"note": ""
},
"C11": {
"status": "partial",
"note": "Every instant of every run, any umask, any creation group, any peer. Ids 4294967295 excluded where chown(2) takes them for 'unchanged'; C11_counterexample shows the claim fails for sudo -g to that gid. C11_boundary says for every process whether it can connect, including those ids."
},
"C12": {
"status": "partial",
"note": "Consequence of C11 for the invoking user's own credentials; same excluded ids (C11_counterexample's peer is the invoking user). C12_boundary says exactly when the invoking user can connect."
},
"C13": {
"status": "proved",
"note": "For every return of Socket::open and for whole callback histories, truthful umask(2) replies. C13_panic_keeps_umask: a panic in Socket::open (descriptor beyond FD_SETSIZE) leaves 0777."
},
"C14": {
"status": "proved",
"note": "For every return of Socket::open and whole callback histories, with truthful metadata and no failed unlink. C14_panic_leaves_socket: a panic leaves the socket file."
},
"C15": {
"status": "proved",
"note": "Every removal in every callback; refusal for a foreign file seen before bind."
},
"C16": {
"status": "partial",
"note": "Vetting before every bind, with owner, permissions and the directory identified with socket_dir. The type test checks only the bit 040000, so block devices and sockets pass: C16_counterexample, C16_types_partial. C16_boundary: exactly directories, block devices and sockets pass the type test."
},
"C54": {
"status": "proved",
"note": "For every OS schedule the history of open follows an automaton over the interactions (Spec/Order): local prompt, vetting, stale removal, umask, bind, chown, chmod, select, accept, removal, umask, prompt file, prompt, reply only after the complete prompt; early ends go through the clean-up."
},
"C42": {
"status": "proved",
"note": "While a socket operation on the pair's behalf runs, SA_RESTART is off; afterwards the previous disposition is back unless a sigaction call failed; over all callbacks."
},
"C43": {
"status": "proved",
"note": "After an interrupted wait for the pair (select or the answer) open refuses; interrupted mirror writes are retried and stay in order. Note: interrupted writes of the prompt are retried as well."
},
"C44": {
"status": "partial",
"note": "Success implies exact delivery, everything delivered is a prefix. The converse (failure implies incomplete delivery) needs sigaction not to fail; C44_counterexample shows the failing case. C44_boundary is exact."
},
"C40": {
"status": "partial",
"note": "Proved for texts without a percent sign, and every format string any callback passes to printf is such a text except descriptions of unusable arguments and the local prompt. C40_counterexample: the full statement is false, since the text itself is used as format string. C40_boundary is exact: shown verbatim iff there is no percent sign."
},
"C41": {
"status": "partial",
"note": "Errors without a cause (all errors of both crates): shown once, bounded number of interactions, ends. C41_counterexample: for an error with a cause write_error repeats the first cause forever, so the full statement is false. C41_boundary is exact: bounded iff the error has no cause."
},
"C55": {
"status": "proved",
"note": "Bound on the number of interactions of every callback, which files are read (the two prompt files, once each, in order), termination when answers keep coming, independence from unused answers."
},
"C45": {
"status": "partial",
"note": "Full statement C45Full fails: when printf returns more than the length of the text (a prompt with a field width, e.g. %100d after expansion), write_all panics and open returns -1 (C45_counterexample). Proved without that: the local prompt always returns (C45_returns_partial), and once it returned the result, the state and all later interactions do not depend on how it went (C45_irrelevant); the text shown is the expansion of the file or of the built-in default (C45_text); same for the approver (C45_default). C45_boundary is exact: the prompt stops the session iff a write claims more than it was given."
},
"C48": {
"status": "partial",
"note": "Full statement C48Full fails (C48_counterexample): SUDO_UID can be set by the caller, and arguments are evaluated as bash arithmetic, which can run commands and assign variables (SUDO_UID=0,1000 gets a user to their own session even if sudo set SUDO_UID). Proved for a true SUDO_UID and arguments that do not change it, including the runs that the script starts through sudo (C48_own_partial); no hidden command is run for numeric arguments (C48_no_code). Bash arithmetic is an arbitrary function of the variables and the text, which may change the variables, and reads decimal numbers. C48_boundary is exact: when the script connects, to what, and that only the value SUDO_UID or id -u has after the arguments were evaluated is compared."
},
"C53": {
"status": "proved",
"note": "All histories of callbacks, from the initial state."
},
"C56": {
"status": "proved",
"note": "All states and schedules; the text shown is read off printf calls (PrintfTruth: printf reports the number of bytes it printed). Note: the version shown is that of the crate sudo_plugin, not of sudo_pair."
},
"C57": {
"status": "proved",
"note": "For every evaluator that reads decimal numbers; the script's directory is fixed, so only sessions with the default socket_dir are reached."
},
"C58": {
"status": "proved",
"note": "Generic model of core.rs, io_state.rs and io_plugin.rs over an arbitrary plugin; C58_instance shows that Model/Core is its instance for SudoPair. C58_panicking_close: a plugin whose close panics leaves a stale environment (SudoPair's close does not panic)."
},
"C59": {
"status": "proved",
"note": "Composition of the modelled plugin with sudo's documented front end (Spec/Frontend, an assumption about sudo). The first open of a process; the hypothesis command \u2260 [] excludes undecodable commands, for which C01_counterexample shows the gate open."
},
"C60": {
"status": "proved",
"note": "Typed partial memory of bytes and pointers, 8 or 4 bytes wide; undefined behaviour and divergence are none. argc negative or argv NULL (even with argc 0) is undefined behaviour (C60_argv_undefined); sudo passes neither. Objects beyond isize::MAX are undefined too: on 32-bit targets that rules out buffers of 2 GiB (C60_log_half). Aliasing and concurrent modification by sudo are not modelled."
},
"C61": {
"status": "proved",
"note": "The shipped prompt for the user advertises self-approval ('you may run the above command to approve your own session'), which the shipped script refuses (C48_own_partial)."
},
"C62": {
"status": "proved",
"note": "Script model (commands run, in order) composed with the plugin's choice of owner, group and mode. Bash arithmetic and stat's output format are assumptions of the statement."
},
"C63": {
"status": "proved",
"note": "C63_exact: each callback equals the machine of Spec/Protocol under every schedule (same interactions, result, state); C63_total: the protocol covers every callback in every state; C63_history: whole histories, as an equivalence; C63_never_panics."
},
"C64": {
"status": "proved",
"note": "C64_complaint, C64_crash, C64_accepted are equivalences; C52_determined and C52_exact: the environment is determined by the arguments."
},
"C65": {
"status": "proved",
"note": "Layout of repr(C) structures computed from member sizes; calling through the slot equals the step of the generic framework; instances for sudo_pair follow by C58_instance."
},
"C66": {
"status": "proved",
"note": "Model/Audit repeats lib.rs and core.rs with their slog records; erasing the records gives exactly the model that the other claims are about (C66_erase, C66_erase_run). What the log does not tell is shown too: a connection or read error leaves no closing record, rejected arguments and tripped debug assertions leave no lasting record, and a session dropped by a second open is never recorded to end. Formatting of records by the drains is not modelled."
},
"C67": {
"status": "proved",
"note": "Other processes are those of POSIX permissions without ACLs; the directory itself and its ancestors are not replaced (assumption of Spec/World). The exclusions of ids and empty commands are part of the statement, see C11_counterexample and C01_counterexample."
},
"C68": {
"status": "proved",
"note": "Equivalence on every returning call of open (C68_refused_iff), with the mishaps defined on events alone (Spec/Refusal); C68_possible: exactly the sessions that some behaviour of the system lets through. The static part is stated on the environment made from the arguments (C52, C64 and C65 characterise it)."
},
"C69": {
"status": "proved",
"note": "Spec/Search, Props/Search: C69_peer, C69_closed, C69_open, C69_script. Target ids 4294967295 excluded as in C11, empty commands as in C01; insiders as in C67. The directories above the socket directory are taken to be open to everybody."
},
"C70": {
"status": "proved",
"note": "Model/LogText. Every rendering of std is covered by the parameter Escapes. What syslog and journald make of a record is not modelled."
},
"C71": {
"status": "proved",
"note": "Order and names of the members are read off the header and the bindings."
},
"C72": {
"status": "proved",
"note": "64-bit and 32-bit targets. How registers and stack carry words is not modelled."
},
"C73": {
"status": "proved",
"note": "C73_files: any callback sequence; C73_undisturbed: any number of other plugin processes drop out; C73_peer, C73_approved, C73_not_alone carry C67 over. Premises on path names are stated in the property."
},
"C74": {
"status": "proved",
"note": "C74_depends: alike call sequences give the same history and the same endings under every schedule; C74_log: they also write the same log records of all levels; C74_user_env: the user's environment variables in particular; C74_needed: each listed key makes a difference in some session."
},
"C75": {
"status": "proved",
"note": "The complete sequences of records of every level (Spec/Transcript: Course, StopsShort, CutOff). C75_open and C75_none: open; C75_close, C75_log, C75_winsize, C75_version: the other callbacks; C75_answer: the recorded answer is the one read last; C75_lifecycle: records of sessions beginning and being given up match, over every history. Uses the logging model of C66."
},
"C76": {
"status": "proved",
"note": "Sudo's behaviour is assumed as documented (Spec/Frontend), that of other processes as their permissions allow (Spec/World, Spec/Together)."
},
"C77": {
"status": "proved",
"note": "C77_log for one callback in any state; C77_session and C77_exempt for whole sessions. That the log has only the number of bytes is C75."
},
"C78": {
"status": "proved",
"note": "Every close(2) that drop glue performs is in Model/Handles, which erases to the model of the other claims (C78_erase). The automaton of Spec/Handles accepts every trace, with at most three descriptors open."
},
"C79": {
"status": "proved",
"note": "Assumes that sudo passes the words behind the plugin's names on as plugin_options."
},
"C80": {
"status": "proved",
"note": "A command that fails is taken to have a status other than 0; sudo's status is that of the command it runs."
},
"C81": {
"status": "proved",
"note": "Whether a record handed to syslog or journald arrives is outside the model (failures are ignored by the code)."
},
"C82": {
"status": "proved",
"note": "Model/Install covers the recipe install of sample/Makefile; the target directories are taken to exist and symbolic links are not followed."
},
"C83": {
"status": "proved",
"note": "The terminal is an assumption (Spec/Screen): a small part of what terminals do, lines of any length. The arguments for which the prompt can be forged are shown by C83_forged, for the built-in and the shipped prompt."
},
"C84": {
"status": "proved",
"note": "The condition on resizes is necessary (C84_counterexample); the user's terminal and the pair's are assumed to interpret what they get alike."
},
"C85": {
"status": "proved",
"note": "sudo's front end is an assumption (Spec/Frontend); that nothing is accepted on a lost connection is a hypothesis on the replies of the kernel."
},
"C86": {
"status": "proved",
"note": "The shell's reading of words is an assumption (Spec/Shell)."
},
"C87": {
"status": "proved",
"note": "sudoers' logging tags against the plugin's decision; finding 45: the README's own examples allow piping"
},
"C88": {
"status": "proved",
"note": "The commands of the script end with those of pair() or have nothing to do with the terminal; stty's effect is a fold over them (a failing stty may leave any settings). C88_quit_suspend and C88_unread state what is not covered: the keys for quit and suspend, and a stty -g that fails."
},
"C89": {
"status": "proved",
"note": "Model/Ip is the parser of Rust's standard library (1.53 or later), written from memory since its source is not available here."
}
}
