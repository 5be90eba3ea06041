{
 "claims": [
  {
   "property": "C01",
   "status": "partial",
   "theorems": [
    "SudoPair.C01_boundary",
    "SudoPair.C01_approval_partial",
    "SudoPair.C01_first_open_partial",
    "SudoPair.C01_counterexample"
   ],
   "note": "Proved whenever the command line decodes (C01_approval_partial), and for every first open (C01_first_open_partial). The full statement is false: C01_counterexample is an open that returns 1 unpaired because command is missing or not UTF-8. C01_boundary is exact: approved iff the command path is not empty after decoding."
  },
  {
   "property": "C02",
   "status": "proved",
   "theorems": [
    "SudoPair.C02_no_unapproved_io"
   ],
   "note": "Invariant over all callback histories (Exec); the approval is exhibited in the history of the open that stored the session."
  },
  {
   "property": "C03",
   "status": "proved",
   "theorems": [
    "SudoPair.C03_reply",
    "SudoPair.C03_failure",
    "SudoPair.C03_no_reply"
   ],
   "note": "Reply, failure and end-of-file cases; for every schedule."
  },
  {
   "property": "C04",
   "status": "proved",
   "theorems": [
    "SudoPair.C04_rule",
    "SudoPair.C04_total",
    "SudoPair.C04_release"
   ],
   "note": "Decision equivalent to the independent Spec.Exempt; release builds always decide."
  },
  {
   "property": "C05",
   "status": "partial",
   "theorems": [
    "SudoPair.C05_boundary",
    "SudoPair.C05_open",
    "SudoPair.C05_logs_partial",
    "SudoPair.C05_counterexample"
   ],
   "note": "open part in full (C05_open); log callbacks over all histories for sessions with a command path (C05_logs_partial). False for an exempt session whose command decodes to the empty path: C05_counterexample (open 1, log 0). C05_boundary is exact: the log callbacks pass everything iff the command path is not empty."
  },
  {
   "property": "C06",
   "status": "proved",
   "theorems": [
    "SudoPair.C06_open_enforced",
    "SudoPair.C06_open_exempted",
    "SudoPair.C06_append",
    "SudoPair.C06_enforced_mono",
    "SudoPair.C06_exempted_mono"
   ],
   "note": "Giving gids_enforced a first value replaces the default (gid 0) and is not an addition."
  },
  {
   "property": "C07",
   "status": "partial",
   "theorems": [
    "SudoPair.C07_boundary",
    "SudoPair.C07_rejected_partial",
    "SudoPair.C07_counterexample"
   ],
   "note": "Proved when the group name is UTF-8 (C07_rejected_partial); C07_counterexample shows a non-UTF-8 group name is treated as absent. C07_boundary is exact: refused before any prompt or socket iff the value of -g is UTF-8."
  },
  {
   "property": "C08",
   "status": "proved",
   "theorems": [
    "SudoPair.C08_open",
    "SudoPair.C08_open_env_panic",
    "SudoPair.C08_open_plugin_panic",
    "SudoPair.C08_log",
    "SudoPair.C08_log_panic",
    "SudoPair.C08_no_panic",
    "SudoPair.C08_show_version"
   ],
   "note": "All callbacks, panics mapped to refusal codes."
  },
  {
   "property": "C09",
   "status": "proved",
   "theorems": [
    "SudoPair.C09_refused",
    "SudoPair.C09_accepted"
   ],
   "note": "Refusal for every input that is not WellFormedInput, and acceptance otherwise."
  },
  {
   "property": "C10",
   "status": "proved",
   "theorems": [
    "SudoPair.C10_refused",
    "SudoPair.C10_check",
    "SudoPair.C10_check_components"
   ],
   "note": ""
  },
  {
   "property": "C11",
   "status": "partial",
   "theorems": [
    "SudoPair.C11_boundary",
    "SudoPair.C11_reachable_partial",
    "SudoPair.C11_counterexample"
   ],
   "note": "Every instant of every run, any umask, any creation group, any peer. Ids 4294967295 excluded where chown(2) takes them for 'unchanged'; C11_counterexample shows the claim fails for sudo -g to that gid. C11_boundary says for every process whether it can connect, including those ids."
  },
  {
   "property": "C12",
   "status": "partial",
   "theorems": [
    "SudoPair.C12_boundary",
    "SudoPair.C12_no_self_approval_partial"
   ],
   "note": "Consequence of C11 for the invoking user's own credentials; same excluded ids (C11_counterexample's peer is the invoking user). C12_boundary says exactly when the invoking user can connect."
  },
  {
   "property": "C13",
   "status": "proved",
   "theorems": [
    "SudoPair.C13_umask_restored",
    "SudoPair.C13_callbacks",
    "SudoPair.C13_panic_keeps_umask"
   ],
   "note": "For every return of Socket::open and for whole callback histories, truthful umask(2) replies. C13_panic_keeps_umask: a panic in Socket::open (descriptor beyond FD_SETSIZE) leaves 0777."
  },
  {
   "property": "C14",
   "status": "proved",
   "theorems": [
    "SudoPair.C14_unlinked",
    "SudoPair.C14_callbacks",
    "SudoPair.C14_panic_leaves_socket"
   ],
   "note": "For every return of Socket::open and whole callback histories, with truthful metadata and no failed unlink. C14_panic_leaves_socket: a panic leaves the socket file."
  },
  {
   "property": "C15",
   "status": "proved",
   "theorems": [
    "SudoPair.C15_removals",
    "SudoPair.C15_foreign_refused"
   ],
   "note": "Every removal in every callback; refusal for a foreign file seen before bind."
  },
  {
   "property": "C16",
   "status": "partial",
   "theorems": [
    "SudoPair.C16_boundary",
    "SudoPair.C16_parent",
    "SudoPair.C16_vetted_partial",
    "SudoPair.C16_types_partial",
    "SudoPair.C16_counterexample"
   ],
   "note": "Vetting before every bind, with owner, permissions and the directory identified with socket_dir. The type test checks only the bit 040000, so block devices and sockets pass: C16_counterexample, C16_types_partial. C16_boundary: exactly directories, block devices and sockets pass the type test."
  },
  {
   "property": "C17",
   "status": "proved",
   "theorems": [
    "SudoPair.C17_path",
    "SudoPair.C17_literal",
    "SudoPair.C17_injective",
    "SudoPair.C17_prompt"
   ],
   "note": "Socket path shape and injectivity on (uid, pid)."
  },
  {
   "property": "C18",
   "status": "partial",
   "theorems": [
    "SudoPair.C18_boundary",
    "SudoPair.C18_callbacks",
    "SudoPair.C18_prefix",
    "SudoPair.C18_session_partial",
    "SudoPair.C18_counterexample"
   ],
   "note": "Callbacks in full (C18_callbacks, C18_prefix); whole sessions up to the echo of the reply, whose write errors the plugin ignores (C18_session_partial, C18_counterexample). C18_boundary is exact: everything arrived iff the socket accepted the echo and the newline after the reply."
  },
  {
   "property": "C19",
   "status": "proved",
   "theorems": [
    "SudoPair.C19_output"
   ],
   "note": "For every payload, facility and schedule of answers."
  },
  {
   "property": "C20",
   "status": "partial",
   "theorems": [
    "SudoPair.C20_boundary",
    "SudoPair.C20_hint_off",
    "SudoPair.C20_hint_on_partial",
    "SudoPair.C20_counterexample"
   ],
   "note": "Hint off: nothing happens (C20_hint_off). Hint on: exact delivery for the three output facilities (C20_hint_on_partial); terminal input is never mirrored (C20_counterexample). C20_boundary: exactly what each facility sends."
  },
  {
   "property": "C21",
   "status": "partial",
   "theorems": [
    "SudoPair.C21_boundary",
    "SudoPair.C21_stdin_refused_partial",
    "SudoPair.C21_counterexample"
   ],
   "note": "Proved when the iolog_stdin hint is on (C21_stdin_refused_partial); with the hint off stdin is accepted (C21_counterexample). C21_boundary is exact: refused iff the hint is on or no pairing is stored."
  },
  {
   "property": "C22",
   "status": "proved",
   "theorems": [
    "SudoPair.C22_resize",
    "SudoPair.C22_injective"
   ],
   "note": ""
  },
  {
   "property": "C23",
   "status": "proved",
   "theorems": [
    "SudoPair.C23_log_refused",
    "SudoPair.C23_show_version_refused"
   ],
   "note": "Over all callback histories."
  },
  {
   "property": "C24",
   "status": "proved",
   "theorems": [
    "SudoPair.C24_close",
    "SudoPair.C24_idempotent",
    "SudoPair.C24_silent_afterwards"
   ],
   "note": "Over all callback histories."
  },
  {
   "property": "C25",
   "status": "proved",
   "theorems": [
    "SudoPair.C25_hangs_up"
   ],
   "note": ""
  },
  {
   "property": "C26",
   "status": "proved",
   "theorems": [
    "SudoPair.C26_template",
    "SudoPair.C26_from_map",
    "SudoPair.C26_table"
   ],
   "note": "Expansion equivalent to an inductive relation."
  },
  {
   "property": "C27",
   "status": "proved",
   "theorems": [
    "SudoPair.C27_tokens",
    "SudoPair.C27_append",
    "SudoPair.C27_append_unpaired",
    "SudoPair.C27_protect"
   ],
   "note": ""
  },
  {
   "property": "C28",
   "status": "proved",
   "theorems": [
    "SudoPair.C28_binary_name",
    "SudoPair.C28_binary_name_literal",
    "SudoPair.C28_variables",
    "SudoPair.C28_percent"
   ],
   "note": "Every variable's value."
  },
  {
   "property": "C29",
   "status": "proved",
   "theorems": [
    "SudoPair.C29_option_vector",
    "SudoPair.C29_absent",
    "SudoPair.C29_append",
    "SudoPair.C29_order_irrelevant"
   ],
   "note": "Key lookup after fromRaw is equivalent to the independent relation Spec.Value (last entry with that key)."
  },
  {
   "property": "C30",
   "status": "proved",
   "theorems": [
    "SudoPair.C30_unsigned",
    "SudoPair.C30_signed",
    "SudoPair.C30_unsigned_roundtrip",
    "SudoPair.C30_signed_roundtrip",
    "SudoPair.C30_prints",
    "SudoPair.C30_unique"
   ],
   "note": "Parser equivalent to the decimal denotation relations, for every width; round trips."
  },
  {
   "property": "C31",
   "status": "proved",
   "theorems": [
    "SudoPair.C31_list",
    "SudoPair.C31_ids",
    "SudoPair.C31_nonempty",
    "SudoPair.C31_bad_element"
   ],
   "note": "List parser equivalent to Spec.DenotesList."
  },
  {
   "property": "C32",
   "status": "proved",
   "theorems": [
    "SudoPair.C32_plugin_options",
    "SudoPair.C32_malformed_exempted",
    "SudoPair.C32_session",
    "SudoPair.C32_determined"
   ],
   "note": "All six options, plus: malformed gids_exempted exempts nobody."
  },
  {
   "property": "C33",
   "status": "partial",
   "theorems": [
    "SudoPair.C33_boundary",
    "SudoPair.C33_session_partial",
    "SudoPair.C33_malformed",
    "SudoPair.C33_enforced_partial",
    "SudoPair.C33_counterexample"
   ],
   "note": "Holds when the whole list is well formed, for the decision (C33_enforced_partial) and for sessions (C33_session_partial). The full statement is false: with any malformed element only gid 0 is enforced (C33_malformed, C33_counterexample). C33_boundary is exact: enforced in full iff every element is a gid or no gid but 0 is listed."
  },
  {
   "property": "C34",
   "status": "proved",
   "theorems": [
    "SudoPair.C34_utf8"
   ],
   "note": "Validator equivalent to: is the encoding of some list of scalar values."
  },
  {
   "property": "C35",
   "status": "proved",
   "theorems": [
    "SudoPair.C35_unpack_pack",
    "SudoPair.C35_pack_unpack",
    "SudoPair.C35_sys_roundtrip",
    "SudoPair.C35_monotone",
    "SudoPair.C35_ge"
   ],
   "note": ""
  },
  {
   "property": "C36",
   "status": "partial",
   "theorems": [
    "SudoPair.C36_boundary",
    "SudoPair.C36_alone",
    "SudoPair.C36_no_panic_partial",
    "SudoPair.C36_panic_iff",
    "SudoPair.C36_counterexample"
   ],
   "note": "False as stated: C36_panic_iff characterises the panic exactly, C36_counterexample is a witness, C36_alone says that with the parser of the standard library every address alone is one; C36_no_panic_partial is the safe case. C36_boundary states the panic on the raw option text."
  },
  {
   "property": "C37",
   "status": "proved",
   "theorems": [
    "SudoPair.C37_shows_everything",
    "SudoPair.C37_arguments_suffix",
    "SudoPair.C37_exact",
    "SudoPair.C37_flags_ordered"
   ],
   "note": ""
  },
  {
   "property": "C38",
   "status": "partial",
   "theorems": [
    "SudoPair.C38_injective_partial",
    "SudoPair.C38_counterexample",
    "SudoPair.C38_boundary"
   ],
   "note": "False as stated (C38_counterexample); C38_injective_partial is injectivity under the stated unambiguity hypothesis. C38_boundary is exact: two sessions look the same iff their words have the same pieces between spaces."
  },
  {
   "property": "C39",
   "status": "proved",
   "theorems": [
    "SudoPair.C39_runas_gids",
    "SudoPair.C39_total"
   ],
   "note": ""
  },
  {
   "property": "C40",
   "status": "partial",
   "theorems": [
    "SudoPair.C40_boundary",
    "SudoPair.C40_verbatim_partial",
    "SudoPair.C40_line_partial",
    "SudoPair.C40_error_partial",
    "SudoPair.C40_errors_of_sudo_pair",
    "SudoPair.C40_version",
    "SudoPair.C40_formats",
    "SudoPair.C40_counterexample"
   ],
   "note": "Proved for texts without a percent sign, and every format string any callback passes to printf is such a text except descriptions of unusable arguments and the local prompt. C40_counterexample: the full statement is false, since the text itself is used as format string. C40_boundary is exact: shown verbatim iff there is no percent sign."
  },
  {
   "property": "C41",
   "status": "partial",
   "theorems": [
    "SudoPair.C41_boundary",
    "SudoPair.C41_terminates_partial",
    "SudoPair.C41_ends_partial",
    "SudoPair.C41_never",
    "SudoPair.C41_counterexample"
   ],
   "note": "Errors without a cause (all errors of both crates): shown once, bounded number of interactions, ends. C41_counterexample: for an error with a cause write_error repeats the first cause forever, so the full statement is false. C41_boundary is exact: bounded iff the error has no cause."
  },
  {
   "property": "C42",
   "status": "proved",
   "theorems": [
    "SudoPair.C42_during",
    "SudoPair.C42_restored",
    "SudoPair.C42_callback",
    "SudoPair.C42_always"
   ],
   "note": "While a socket operation on the pair's behalf runs, SA_RESTART is off; afterwards the previous disposition is back unless a sigaction call failed; over all callbacks."
  },
  {
   "property": "C43",
   "status": "proved",
   "theorems": [
    "SudoPair.C43_connect",
    "SudoPair.C43_answer",
    "SudoPair.C43_mirror",
    "SudoPair.C43_mirror_prefix"
   ],
   "note": "After an interrupted wait for the pair (select or the answer) open refuses; interrupted mirror writes are retried and stay in order. Note: interrupted writes of the prompt are retried as well."
  },
  {
   "property": "C44",
   "status": "partial",
   "theorems": [
    "SudoPair.C44_boundary",
    "SudoPair.C44_success",
    "SudoPair.C44_prefix",
    "SudoPair.C44_exact_partial",
    "SudoPair.C44_log_output",
    "SudoPair.C44_counterexample"
   ],
   "note": "Success implies exact delivery, everything delivered is a prefix. The converse (failure implies incomplete delivery) needs sigaction not to fail; C44_counterexample shows the failing case. C44_boundary is exact."
  },
  {
   "property": "C45",
   "status": "partial",
   "theorems": [
    "SudoPair.C45_boundary",
    "SudoPair.C45_text",
    "SudoPair.C45_returns_partial",
    "SudoPair.C45_irrelevant",
    "SudoPair.C45_default",
    "SudoPair.C45_counterexample"
   ],
   "note": "Full statement C45Full fails: when printf returns more than the length of the text (a prompt with a field width, e.g. %100d after expansion), write_all panics and open returns -1 (C45_counterexample). Proved without that: the local prompt always returns (C45_returns_partial), and once it returned the result, the state and all later interactions do not depend on how it went (C45_irrelevant); the text shown is the expansion of the file or of the built-in default (C45_text); same for the approver (C45_default). C45_boundary is exact: the prompt stops the session iff a write claims more than it was given."
  },
  {
   "property": "C46",
   "status": "partial",
   "theorems": [
    "SudoPair.C46_undefined_iff",
    "SudoPair.C46_defined_partial",
    "SudoPair.C46_counterexample"
   ],
   "note": "False as stated (C46_counterexample): unreachable! is reached when the policy changes only the group without -g. C46_undefined_iff is exact."
  },
  {
   "property": "C47",
   "status": "proved",
   "theorems": [
    "SudoPair.C47_same_path",
    "SudoPair.C47_examples"
   ],
   "note": "Path equality equivalent to an independent spelling relation."
  },
  {
   "property": "C48",
   "status": "partial",
   "theorems": [
    "SudoPair.C48_boundary",
    "SudoPair.C48_own_partial",
    "SudoPair.C48_no_code",
    "SudoPair.C48_counterexample"
   ],
   "note": "Full statement C48Full fails (C48_counterexample): SUDO_UID can be set by the caller, and arguments are evaluated as bash arithmetic, which can run commands and assign variables (SUDO_UID=0,1000 gets a user to their own session even if sudo set SUDO_UID). Proved for a true SUDO_UID and arguments that do not change it, including the runs that the script starts through sudo (C48_own_partial); no hidden command is run for numeric arguments (C48_no_code). Bash arithmetic is an arbitrary function of the variables and the text, which may change the variables, and reads decimal numbers. C48_boundary is exact: when the script connects, to what, and that only the value SUDO_UID or id -u has after the arguments were evaluated is compared."
  },
  {
   "property": "C49",
   "status": "partial",
   "theorems": [
    "SudoPair.C49_boundary",
    "SudoPair.C49_fresh_partial",
    "SudoPair.C49_counterexample"
   ],
   "note": "Proved when nothing was opened since the last close. The full statement is false: C49_counterexample is a second open judged by the first open's environment. C49_boundary is exact: the new environment is stored iff none was stored before, or the same one."
  },
  {
   "property": "C50",
   "status": "proved",
   "theorems": [
    "SudoPair.C50_callback",
    "SudoPair.C50_history",
    "SudoPair.C50_alike",
    "SudoPair.C50_trips",
    "SudoPair.C50_consistent"
   ],
   "note": "Decision (C50_alike, C50_consistent, C50_trips: exactly which environments trip a debug assertion), each callback from every state under every schedule (C50_callback), and whole histories of callbacks when sudo obeys its documented rules (C50_history)."
  },
  {
   "property": "C51",
   "status": "partial",
   "theorems": [
    "SudoPair.C51_open_partial",
    "SudoPair.C51_boundary",
    "SudoPair.C51_themselves_partial",
    "SudoPair.C51_counterexample"
   ],
   "note": "False as stated (C51_counterexample): runas_groups and the real uid are ignored in release builds. C51_boundary is exact, for release and debug builds."
  },
  {
   "property": "C52",
   "status": "proved",
   "theorems": [
    "SudoPair.C52_user_info",
    "SudoPair.C52_user_info_succeeds",
    "SudoPair.C52_command_info",
    "SudoPair.C52_settings",
    "SudoPair.C52_environment",
    "SudoPair.C52_settings_succeeds",
    "SudoPair.C52_determined",
    "SudoPair.C52_exact"
   ],
   "note": "Every field of the three typed structures, and exact success conditions. IpAddr parsing is a parameter."
  },
  {
   "property": "C53",
   "status": "proved",
   "theorems": [
    "SudoPair.C53_denies",
    "SudoPair.C53_others",
    "SudoPair.C53_version"
   ],
   "note": "All histories of callbacks, from the initial state."
  },
  {
   "property": "C54",
   "status": "proved",
   "theorems": [
    "SudoPair.C54_order",
    "SudoPair.C54_complete",
    "SudoPair.C54_no_session"
   ],
   "note": "For every OS schedule the history of open follows an automaton over the interactions (Spec/Order): local prompt, vetting, stale removal, umask, bind, chown, chmod, select, accept, removal, umask, prompt file, prompt, reply only after the complete prompt; early ends go through the clean-up."
  },
  {
   "property": "C55",
   "status": "proved",
   "theorems": [
    "SudoPair.C55_bounded",
    "SudoPair.C55_files_open",
    "SudoPair.C55_files_other",
    "SudoPair.C55_two_files",
    "SudoPair.C55_cut",
    "SudoPair.C55_ends",
    "SudoPair.C55_stable"
   ],
   "note": "Bound on the number of interactions of every callback, which files are read (the two prompt files, once each, in order), termination when answers keep coming, independence from unused answers."
  },
  {
   "property": "C56",
   "status": "proved",
   "theorems": [
    "SudoPair.C56_shown",
    "SudoPair.C56_refused",
    "SudoPair.C56_only_prints"
   ],
   "note": "All states and schedules; the text shown is read off printf calls (PrintfTruth: printf reports the number of bytes it printed). Note: the version shown is that of the crate sudo_plugin, not of sudo_pair."
  },
  {
   "property": "C57",
   "status": "proved",
   "theorems": [
    "SudoPair.C57_same_socket",
    "SudoPair.C57_connects"
   ],
   "note": "For every evaluator that reads decimal numbers; the script's directory is fixed, so only sessions with the default socket_dir are reached."
  },
  {
   "property": "C58",
   "status": "proved",
   "theorems": [
    "SudoPair.C58_log",
    "SudoPair.C58_winsize",
    "SudoPair.C58_open",
    "SudoPair.C58_close",
    "SudoPair.C58_show_version",
    "SudoPair.C58_codes",
    "SudoPair.C58_no_panic",
    "SudoPair.C58_session",
    "SudoPair.C58_instance",
    "SudoPair.C58_panicking_close"
   ],
   "note": "Generic model of core.rs, io_state.rs and io_plugin.rs over an arbitrary plugin; C58_instance shows that Model/Core is its instance for SudoPair. C58_panicking_close: a plugin whose close panics leaves a stale environment (SudoPair's close does not panic)."
  },
  {
   "property": "C59",
   "status": "proved",
   "theorems": [
    "SudoPair.C59_pair_sees_first",
    "SudoPair.C59_shown",
    "SudoPair.C59_no_stdin"
   ],
   "note": "Composition of the modelled plugin with sudo's documented front end (Spec/Frontend, an assumption about sudo). The first open of a process; the hypothesis command \u2260 [] excludes undecodable commands, for which C01_counterexample shows the gate open."
  },
  {
   "property": "C60",
   "status": "proved",
   "theorems": [
    "SudoPair.C60_string",
    "SudoPair.C60_vector",
    "SudoPair.C60_argv",
    "SudoPair.C60_env",
    "SudoPair.C60_env_only",
    "SudoPair.C60_open",
    "SudoPair.C60_version_first",
    "SudoPair.C60_argv_undefined",
    "SudoPair.C60_buffer",
    "SudoPair.C60_log",
    "SudoPair.C60_log_blind",
    "SudoPair.C60_log_undefined",
    "SudoPair.C60_log_half",
    "SudoPair.C60_satisfiable"
   ],
   "note": "Typed partial memory of bytes and pointers, 8 or 4 bytes wide; undefined behaviour and divergence are none. argc negative or argv NULL (even with argc 0) is undefined behaviour (C60_argv_undefined); sudo passes neither. Objects beyond isize::MAX are undefined too: on 32-bit targets that rules out buffers of 2 GiB (C60_log_half). Aliasing and concurrent modification by sudo are not modelled."
  },
  {
   "property": "C61",
   "status": "proved",
   "theorems": [
    "SudoPair.C61_default_pair",
    "SudoPair.C61_default_user",
    "SudoPair.C61_sample_pair",
    "SudoPair.C61_sample_user",
    "SudoPair.C61_identifies"
   ],
   "note": "The shipped prompt for the user advertises self-approval ('you may run the above command to approve your own session'), which the shipped script refuses (C48_own_partial)."
  },
  {
   "property": "C62",
   "status": "proved",
   "theorems": [
    "SudoPair.C62_escalates",
    "SudoPair.C62_reaches"
   ],
   "note": "Script model (commands run, in order) composed with the plugin's choice of owner, group and mode. Bash arithmetic and stat's output format are assumptions of the statement."
  },
  {
   "property": "C63",
   "status": "proved",
   "theorems": [
    "SudoPair.C63_exact",
    "SudoPair.C63_total",
    "SudoPair.C63_history",
    "SudoPair.C63_never_panics"
   ],
   "note": "C63_exact: each callback equals the machine of Spec/Protocol under every schedule (same interactions, result, state); C63_total: the protocol covers every callback in every state; C63_history: whole histories, as an equivalence; C63_never_panics."
  },
  {
   "property": "C64",
   "status": "proved",
   "theorems": [
    "SudoPair.C64_complaint",
    "SudoPair.C64_crash",
    "SudoPair.C64_accepted"
   ],
   "note": "C64_complaint, C64_crash, C64_accepted are equivalences; C52_determined and C52_exact: the environment is determined by the arguments."
  },
  {
   "property": "C65",
   "status": "proved",
   "theorems": [
    "SudoPair.C65_layout",
    "SudoPair.C65_dispatch",
    "SudoPair.C65_rest",
    "SudoPair.C65_size",
    "SudoPair.C65_deny"
   ],
   "note": "Layout of repr(C) structures computed from member sizes; calling through the slot equals the step of the generic framework; instances for sudo_pair follow by C58_instance."
  },
  {
   "property": "C66",
   "status": "proved",
   "theorems": [
    "SudoPair.C66_erase",
    "SudoPair.C66_erase_run",
    "SudoPair.C66_levels",
    "SudoPair.C66_rejected",
    "SudoPair.C66_silent",
    "SudoPair.C66_exempt",
    "SudoPair.C66_story",
    "SudoPair.C66_messages",
    "SudoPair.C66_nobody",
    "SudoPair.C66_accountable",
    "SudoPair.C66_close",
    "SudoPair.C66_others",
    "SudoPair.C66_balance",
    "SudoPair.C66_identity",
    "SudoPair.C66_identity_later",
    "SudoPair.C66_reason"
   ],
   "note": "Model/Audit repeats lib.rs and core.rs with their slog records; erasing the records gives exactly the model that the other claims are about (C66_erase, C66_erase_run). What the log does not tell is shown too: a connection or read error leaves no closing record, rejected arguments and tripped debug assertions leave no lasting record, and a session dropped by a second open is never recorded to end. Formatting of records by the drains is not modelled."
  },
  {
   "property": "C67",
   "status": "proved",
   "theorems": [
    "SudoPair.C67_peer",
    "SudoPair.C67_approved",
    "SudoPair.C67_not_alone"
   ],
   "note": "Other processes are those of POSIX permissions without ACLs; the directory itself and its ancestors are not replaced (assumption of Spec/World). The exclusions of ids and empty commands are part of the statement, see C11_counterexample and C01_counterexample."
  },
  {
   "property": "C68",
   "status": "proved",
   "theorems": [
    "SudoPair.C68_refused_iff",
    "SudoPair.C68_possible"
   ],
   "note": "Equivalence on every returning call of open (C68_refused_iff), with the mishaps defined on events alone (Spec/Refusal); C68_possible: exactly the sessions that some behaviour of the system lets through. The static part is stated on the environment made from the arguments (C52, C64 and C65 characterise it)."
  },
  {
   "property": "C69",
   "status": "proved",
   "theorems": [
    "SudoPair.C69_peer",
    "SudoPair.C69_closed",
    "SudoPair.C69_open",
    "SudoPair.C69_script"
   ],
   "note": "Spec/Search, Props/Search: C69_peer, C69_closed, C69_open, C69_script. Target ids 4294967295 excluded as in C11, empty commands as in C01; insiders as in C67. The directories above the socket directory are taken to be open to everybody."
  },
  {
   "property": "C70",
   "status": "proved",
   "theorems": [
    "SudoPair.C70_options_text",
    "SudoPair.C70_options",
    "SudoPair.C70_options_rule",
    "SudoPair.C70_options_exists",
    "SudoPair.C70_options_line",
    "SudoPair.C70_args_read",
    "SudoPair.C70_args_recorded",
    "SudoPair.C70_options_read",
    "SudoPair.C70_read_once",
    "SudoPair.C70_options_recorded",
    "SudoPair.C70_lossy",
    "SudoPair.C70_text",
    "SudoPair.C70_lossy_inj",
    "SudoPair.C70_numbers",
    "SudoPair.C70_octal",
    "SudoPair.C70_args",
    "SudoPair.C70_one_line",
    "SudoPair.C70_records",
    "SudoPair.C70_same",
    "SudoPair.C70_command"
   ],
   "note": "Model/LogText. Every rendering of std is covered by the parameter Escapes. What syslog and journald make of a record is not modelled."
  },
  {
   "property": "C71",
   "status": "proved",
   "theorems": [
    "SudoPair.C71_layout",
    "SudoPair.C71_empty"
   ],
   "note": "Order and names of the members are read off the header and the bindings."
  },
  {
   "property": "C72",
   "status": "proved",
   "theorems": [
    "SudoPair.C72_call",
    "SudoPair.C72_sudo_pair",
    "SudoPair.C72_upper",
    "SudoPair.C72_deny"
   ],
   "note": "64-bit and 32-bit targets. How registers and stack carry words is not modelled."
  },
  {
   "property": "C73",
   "status": "proved",
   "theorems": [
    "SudoPair.C73_files",
    "SudoPair.C73_undisturbed",
    "SudoPair.C73_peer",
    "SudoPair.C73_approved",
    "SudoPair.C73_not_alone"
   ],
   "note": "C73_files: any callback sequence; C73_undisturbed: any number of other plugin processes drop out; C73_peer, C73_approved, C73_not_alone carry C67 over. Premises on path names are stated in the property."
  },
  {
   "property": "C74",
   "status": "proved",
   "theorems": [
    "SudoPair.C74_depends",
    "SudoPair.C74_user_env",
    "SudoPair.C74_needed",
    "SudoPair.C74_log"
   ],
   "note": "C74_depends: alike call sequences give the same history and the same endings under every schedule; C74_log: they also write the same log records of all levels; C74_user_env: the user's environment variables in particular; C74_needed: each listed key makes a difference in some session."
  },
  {
   "property": "C75",
   "status": "proved",
   "theorems": [
    "SudoPair.C75_none",
    "SudoPair.C75_open",
    "SudoPair.C75_close",
    "SudoPair.C75_log",
    "SudoPair.C75_winsize",
    "SudoPair.C75_version",
    "SudoPair.C75_answer",
    "SudoPair.C75_lifecycle"
   ],
   "note": "The complete sequences of records of every level (Spec/Transcript: Course, StopsShort, CutOff). C75_open and C75_none: open; C75_close, C75_log, C75_winsize, C75_version: the other callbacks; C75_answer: the recorded answer is the one read last; C75_lifecycle: records of sessions beginning and being given up match, over every history. Uses the logging model of C66."
  },
  {
   "property": "C76",
   "status": "proved",
   "theorems": [
    "SudoPair.C76_consent",
    "SudoPair.C76_nothing_before",
    "SudoPair.C76_alone"
   ],
   "note": "Sudo's behaviour is assumed as documented (Spec/Frontend), that of other processes as their permissions allow (Spec/World, Spec/Together)."
  },
  {
   "property": "C77",
   "status": "proved",
   "theorems": [
    "SudoPair.C77_log",
    "SudoPair.C77_session",
    "SudoPair.C77_exempt"
   ],
   "note": "C77_log for one callback in any state; C77_session and C77_exempt for whole sessions. That the log has only the number of bytes is C75."
  },
  {
   "property": "C78",
   "status": "proved",
   "theorems": [
    "SudoPair.C78_erase",
    "SudoPair.C78_proper",
    "SudoPair.C78_session",
    "SudoPair.C78_closed",
    "SudoPair.C78_refused"
   ],
   "note": "Every close(2) that drop glue performs is in Model/Handles, which erases to the model of the other claims (C78_erase). The automaton of Spec/Handles accepts every trace, with at most three descriptors open."
  },
  {
   "property": "C79",
   "status": "proved",
   "theorems": [
    "SudoPair.C79_options",
    "SudoPair.C79_open",
    "SudoPair.C79_makefile"
   ],
   "note": "Assumes that sudo passes the words behind the plugin's names on as plugin_options."
  },
  {
   "property": "C80",
   "status": "proved",
   "theorems": [
    "SudoPair.C80_commands",
    "SudoPair.C80_success",
    "SudoPair.C80_failure",
    "SudoPair.C80_refused",
    "SudoPair.C80_otherwise",
    "SudoPair.C80_connected"
   ],
   "note": "A command that fails is taken to have a status other than 0; sudo's status is that of the command it runs."
  },
  {
   "property": "C81",
   "status": "proved",
   "theorems": [
    "SudoPair.C81_destination",
    "SudoPair.C81_default",
    "SudoPair.C81_keys",
    "SudoPair.C81_unaffected",
    "SudoPair.C81_open",
    "SudoPair.C81_kept",
    "SudoPair.C81_begins",
    "SudoPair.C81_history",
    "SudoPair.C81_unreachable",
    "SudoPair.C81_accountable"
   ],
   "note": "Whether a record handed to syslog or journald arrives is outside the model (failures are ignored by the code)."
  },
  {
   "property": "C82",
   "status": "proved",
   "theorems": [
    "SudoPair.C82_line",
    "SudoPair.C82_options",
    "SudoPair.C82_no_group",
    "SudoPair.C82_found",
    "SudoPair.C82_one_prefix",
    "SudoPair.C82_defaults",
    "SudoPair.C82_places",
    "SudoPair.C82_set",
    "SudoPair.C82_modes",
    "SudoPair.C82_script",
    "SudoPair.C82_debian",
    "SudoPair.C82_readme",
    "SudoPair.C82_rpm"
   ],
   "note": "Model/Install covers the recipe install of sample/Makefile; the target directories are taken to exist and symbolic links are not followed."
  },
  {
   "property": "C83",
   "status": "proved",
   "theorems": [
    "SudoPair.C83_default",
    "SudoPair.C83_sample",
    "SudoPair.C83_forged",
    "SudoPair.C83_apart",
    "SudoPair.C83_asked"
   ],
   "note": "The terminal is an assumption (Spec/Screen): a small part of what terminals do, lines of any length. The arguments for which the prompt can be forged are shown by C83_forged, for the built-in and the shipped prompt."
  },
  {
   "property": "C84",
   "status": "proved",
   "theorems": [
    "SudoPair.C84_follows",
    "SudoPair.C84_takes",
    "SudoPair.C84_screen",
    "SudoPair.C84_counterexample"
   ],
   "note": "The condition on resizes is necessary (C84_counterexample); the user's terminal and the pair's are assumed to interpret what they get alike."
  },
  {
   "property": "C85",
   "status": "proved",
   "theorems": [
    "SudoPair.C85_nothing_unseen",
    "SudoPair.C85_noticed",
    "SudoPair.C85_goes_on",
    "SudoPair.C85_iff"
   ],
   "note": "sudo's front end is an assumption (Spec/Frontend); that nothing is accepted on a lost connection is a hypothesis on the replies of the kernel."
  },
  {
   "property": "C86",
   "status": "proved",
   "theorems": [
    "SudoPair.C86_default",
    "SudoPair.C86_connects",
    "SudoPair.C86_shipped"
   ],
   "note": "The shell's reading of words is an assumption (Spec/Shell)."
  },
  {
   "property": "C87",
   "status": "proved",
   "theorems": [
    "SudoPair.C87_hints",
    "SudoPair.C87_exempt",
    "SudoPair.C87_unpaired",
    "SudoPair.C87_paired",
    "SudoPair.C87_default",
    "SudoPair.C87_everything",
    "SudoPair.C87_opt_out",
    "SudoPair.C87_opt_in",
    "SudoPair.C87_no_input",
    "SudoPair.C87_piped",
    "SudoPair.C87_refused"
   ],
   "note": "sudoers' logging tags against the plugin's decision; finding 45: the README's own examples allow piping"
  },
  {
   "property": "C88",
   "status": "proved",
   "theorems": [
    "SudoPair.C88_connected",
    "SudoPair.C88_restored",
    "SudoPair.C88_unread",
    "SudoPair.C88_runs",
    "SudoPair.C88_keys",
    "SudoPair.C88_quit_suspend",
    "SudoPair.C88_answer"
   ],
   "note": "The commands of the script end with those of pair() or have nothing to do with the terminal; stty's effect is a fold over them (a failing stty may leave any settings). C88_quit_suspend and C88_unread state what is not covered: the keys for quit and suspend, and a stty -g that fails."
  },
  {
   "property": "C89",
   "status": "proved",
   "theorems": [
    "SudoPair.C89_address",
    "SudoPair.C89_unique",
    "SudoPair.C89_list",
    "SudoPair.C89_crash",
    "SudoPair.C89_documented",
    "SudoPair.C89_refused",
    "SudoPair.C89_bytes",
    "SudoPair.C89_all"
   ],
   "note": "Model/Ip is the parser of Rust's standard library (1.53 or later), written from memory since its source is not available here."
  }
 ]
}
