{"id": "C01", "title": "Approval gate", "statement": "If the plugin's open callback returns 1 (session may proceed) for a sudo session that is not exempt from pairing, then during that call a peer connected to the approval socket, the whole expanded pair prompt was written to that peer, and the first byte read back from the peer after the prompt was exactly 'y' or 'Y'.", "quantifier": "every open argument vector (settings, user_info, command_info, plugin options, argv), every plugin configuration and every schedule of operating-system answers (short writes, EINTR, errors, EOF)", "why_tests_cant": "the set of OS answers and option vectors is unbounded; a test samples a few", "anchors": ["sudo_pair/src/lib.rs: SudoPair::open, remote_pair_connect, remote_pair_prompt", "sudo_plugin/src/core.rs: open"]}
{"id": "C02", "title": "No unapproved session gets any I/O through", "statement": "In every history of plugin callbacks within one process lifetime, a log_ttyin/log_ttyout/log_stdin/log_stdout/log_stderr/change_winsize callback returns 1 only if the session currently stored by a previous successful open is exempt or was approved by a pair's 'y'/'Y' in that open.", "quantifier": "every finite sequence of callback invocations, with any arguments and any OS schedule", "why_tests_cant": "quantifies over all callback histories", "anchors": ["sudo_plugin/src/core.rs: open, close, log_*", "sudo_plugin/src/plugin/io_state.rs: init, drop, io_plugin", "sudo_pair/src/lib.rs: SudoPair::open"]}
{"id": "C03", "title": "Anything but y/Y declines", "statement": "If the pair's reply is any other byte, EOF, a read error or an interrupted read (Ctrl-C), open returns -1 and sudo terminates the session; also every failure to create, own, chmod, select, accept or write the socket gives -1.", "quantifier": "every reply byte and every failing OS answer at every point of the handshake", "why_tests_cant": "all 254 other bytes times all failure points times all schedules", "anchors": ["sudo_pair/src/lib.rs: remote_pair_prompt, remote_pair_connect"]}
{"id": "C04", "title": "Exemption decision is exactly the documented rule", "statement": "A session is exempt iff the invoking uid equals the euid sudo runs as, or the target euid and egid equal the invoker's uid and gid, or the command is the approval binary, or the policy asked for no output logging at all, or the invoker belongs to an exempted gid, or none of the gids the command will run with is an enforced gid.", "quantifier": "every environment and every plugin configuration", "why_tests_cant": "decision logic over unbounded id sets", "anchors": ["sudo_pair/src/lib.rs: is_exempt, is_sudoing_from_root, is_sudoing_to_themselves, is_exempted_from_logging, is_sudoing_from_exempted_gid, is_sudoing_to_enforced_gid", "sudo_plugin/src/plugin/io_env.rs: runas_gids"]}
{"id": "C05", "title": "Exempt sessions are left alone", "statement": "For an exempt session open returns 1 without prompting anybody, without creating a socket and without any other system interaction, and afterwards every log callback returns 1 without writing to anyone.", "quantifier": "every exempt environment, every OS schedule and every callback sequence", "why_tests_cant": "all environments and histories", "anchors": ["sudo_pair/src/lib.rs: SudoPair::open, log_output, log_stdin"]}
{"id": "C06", "title": "gids options are monotone", "statement": "Adding gids to gids_enforced never makes a session exempt that was not exempt before, and adding gids to gids_exempted never makes an exempt session require a pair.", "quantifier": "all pairs of configurations ordered by inclusion, all environments", "why_tests_cant": "relational property over two runs", "anchors": ["sudo_pair/src/lib.rs: is_exempt"]}
{"id": "C07", "title": "-u and -g together are rejected", "statement": "A non-exempt session in which the user supplied a group (-g) and which runs as a different user is refused with -1 before any prompt is shown and before any socket is created.", "quantifier": "every non-exempt environment, any group name bytes, any OS schedule", "why_tests_cant": "all group names (any bytes) and environments", "anchors": ["sudo_pair/src/lib.rs: is_sudoing_to_user_and_group, is_sudoing_to_explicit_group", "sudo_plugin/src/options/settings.rs: TryFrom<OptionMap> for Settings"]}
{"id": "C08", "title": "Callbacks are fail-closed and total", "statement": "open returns only 1 or -1, log callbacks return only 1 or 0, and every panic inside a callback is turned into the refusing code (-1 for open, 0 for log) instead of crossing into C.", "quantifier": "every argument vector, plugin state and OS schedule, in debug and release builds", "why_tests_cant": "all panic sites under all inputs", "anchors": ["sudo_plugin/src/core.rs: catch_unwind_open, catch_unwind_log", "sudo_pair/src/errors.rs: From<Error> for OpenStatus/LogStatus", "sudo_plugin/src/errors.rs"]}
{"id": "C09", "title": "Malformed sudo input is refused", "statement": "If sudo omits or garbles any required option (progname, plugin_dir, plugin_path, cwd, egid, euid, gid, groups, host, pgid, pid, ppid, uid, user) open returns -1, stores no environment and performs no pairing interaction.", "quantifier": "every option vector lacking or garbling a required key", "why_tests_cant": "unbounded option vectors", "anchors": ["sudo_plugin/src/options/user_info.rs: try_from", "sudo_plugin/src/options/settings.rs: try_from", "sudo_plugin/src/plugin/io_env.rs: IoEnv::new", "sudo_plugin/src/core.rs: open"]}
{"id": "C10", "title": "Old sudo APIs are refused", "statement": "open succeeds only if the sudo API version is at least 1.9; for lower versions it returns -1 whatever the other arguments, and the packed numeric comparison agrees with the (major, minor) lexicographic one.", "quantifier": "all 2^32 version words", "why_tests_cant": "2^32 version words times all other arguments", "anchors": ["sudo_plugin/src/version.rs: check, supported, from_ffi", "sudo_plugin/src/plugin/io_env.rs: IoEnv::new"]}
{"id": "C11", "title": "Approval socket is reachable only by the target identity", "statement": "At every instant of the call at which the approval socket exists on disk, a process other than the superuser can connect to it only if it acts as the target user (sudo to a user) or holds the target group (sudo -g).", "quantifier": "every environment, every OS schedule, every prefix (instant) of the syscall history, every peer credential", "why_tests_cant": "every instant and every credential; race windows between bind, chown and chmod", "anchors": ["sudo_pair/src/socket.rs: Socket::open", "sudo_pair/src/lib.rs: socket_uid, socket_gid, socket_mode"]}
{"id": "C12", "title": "No silent self-approval", "statement": "A non-superuser process running with the invoking user's own uid and groups cannot connect to the approval socket of its own session, unless the session is sudo -g to a group that the user already holds.", "quantifier": "every environment, every instant, every OS schedule", "why_tests_cant": "every instant and group list", "anchors": ["sudo_pair/src/lib.rs: socket_uid, socket_gid, socket_mode", "sudo_pair/src/socket.rs: Socket::open"]}
{"id": "C13", "title": "umask is restored", "statement": "Whenever Socket::open returns (with success or error) the process umask is what it was before the call.", "quantifier": "every path, uid, gid, mode and OS schedule", "why_tests_cant": "every failure point", "anchors": ["sudo_pair/src/socket.rs: Socket::open"]}
{"id": "C14", "title": "Socket file does not outlive the handshake", "statement": "When the approval handshake returns (connected, refused or aborted by Ctrl-C), the socket it created has been unlinked from the filesystem, unless the unlink system call itself failed.", "quantifier": "every OS schedule", "why_tests_cant": "every failure point and panic path", "anchors": ["sudo_pair/src/socket.rs: Socket::open, unlink"]}
{"id": "C15", "title": "Foreign files are never deleted", "statement": "The only path the plugin ever removes is the approval socket path, and it removes it only immediately after the OS reported that this path is a socket; if a non-socket exists there, the session is refused.", "quantifier": "every OS schedule", "why_tests_cant": "all histories", "anchors": ["sudo_pair/src/socket.rs: Socket::unlink, Socket::open"]}
{"id": "C16", "title": "Socket directory is vetted", "statement": "No socket is ever bound unless the directory that will contain it was just found to be a directory, owned by sudo's effective uid, and not writable by group or others.", "quantifier": "every configured socket_dir, every stat answer, every OS schedule", "why_tests_cant": "all mode words and paths", "anchors": ["sudo_pair/src/socket.rs: enforce_ownership", "sudo_pair/src/lib.rs: socket_path"]}
{"id": "C17", "title": "Socket path identifies the session", "statement": "The approval socket path is <socket_dir>/<uid>.<pid>.sock in decimal; two live sessions with different (uid, pid) never share a path, the name never escapes socket_dir, and the uid and pid shown in the prompt (%u %p) are the ones in the path.", "quantifier": "all uids (u32), pids (i32), socket_dir byte strings", "why_tests_cant": "all pairs of ids", "anchors": ["sudo_pair/src/lib.rs: socket_path, template_spec"]}
{"id": "C18", "title": "Everything mirrored, in order", "statement": "In an approved session, after any sequence of log callbacks that all returned 1, the bytes handed to the pair's socket are exactly: prompt, echoed reply, newline, then the concatenation in call order of the payloads of the enabled output callbacks and window-size sequences - nothing lost, duplicated or reordered; if a callback fails the bytes are a prefix of that.", "quantifier": "all callback sequences, all payloads, all schedules of short writes and interrupts", "why_tests_cant": "unbounded sequences and schedules", "anchors": ["sudo_pair/src/lib.rs: log_output, log_ttyout, log_stdout, log_stderr, change_winsize", "sudo_plugin/src/core.rs: log_*"]}
{"id": "C19", "title": "Losing the pair ends the session", "statement": "If writing output to the pair fails (pair disconnected), the log callback returns 0 so that sudo kills the command before the output reaches the user's terminal; it returns 1 only if all bytes were accepted by the socket.", "quantifier": "all payloads and write schedules", "why_tests_cant": "every short-write/error schedule", "anchors": ["sudo_pair/src/lib.rs: log_output", "sudo_pair/src/socket.rs: Write for Socket"]}
{"id": "C20", "title": "Logging hints are respected", "statement": "A log callback for a facility whose iolog hint is false returns 1 and sends nothing to the pair; conversely for every facility with the hint set the payload is sent.", "quantifier": "all environments, payloads", "why_tests_cant": "all environments", "anchors": ["sudo_plugin/src/core.rs: log_ttyin, log_ttyout, log_stdin, log_stdout, log_stderr"]}
{"id": "C21", "title": "Paired sessions cannot be piped to", "statement": "In a session that requires a pair, any data arriving on a redirected standard input is refused (log_stdin returns 0).", "quantifier": "every non-exempt environment and payload", "why_tests_cant": "all environments", "anchors": ["sudo_pair/src/lib.rs: log_stdin", "sudo_plugin/src/core.rs: log_stdin", "README.md: Limitations"]}
{"id": "C22", "title": "Terminal resize is forwarded exactly", "statement": "change_winsize in an approved session sends exactly ESC[8;<lines>;<cols>t in decimal to the pair, is not subject to the logging hints, and distinct sizes give distinct sequences.", "quantifier": "all u32 line and column counts", "why_tests_cant": "2^64 inputs", "anchors": ["sudo_pair/src/lib.rs: change_winsize", "sudo_plugin/src/core.rs: change_winsize"]}
{"id": "C23", "title": "Callbacks outside a session are refused", "statement": "A log callback before any open, after a failed open, or after close returns 0; show_version before open returns -1.", "quantifier": "every callback history", "why_tests_cant": "all histories", "anchors": ["sudo_plugin/src/core.rs", "sudo_plugin/src/plugin/io_state.rs: io_env, io_plugin, drop"]}
{"id": "C24", "title": "close ends the pairing", "statement": "close shuts the pair's socket down iff one is connected, forgets plugin and environment, is idempotent, and no byte is sent to the pair afterwards without a new open.", "quantifier": "every callback history", "why_tests_cant": "all histories", "anchors": ["sudo_plugin/src/core.rs: close", "sudo_plugin/src/plugin/io_state.rs: drop", "sudo_pair/src/lib.rs: SudoPair::close", "sudo_pair/src/socket.rs: Drop for Socket"]}
{"id": "C25", "title": "Failed handshakes hang up", "statement": "If open returns -1 after a peer connected, the connection has been shut down.", "quantifier": "every OS schedule after accept", "why_tests_cant": "every failure point", "anchors": ["sudo_pair/src/lib.rs: SudoPair::open", "sudo_pair/src/socket.rs: Drop for Socket"]}
{"id": "C26", "title": "Template language", "statement": "Expansion of a prompt template copies every byte literally except that an escape byte followed by byte b is replaced by b's expansion if defined and by b itself otherwise; a single trailing escape byte is dropped.", "quantifier": "all templates, escape bytes and expansion tables", "why_tests_cant": "all byte strings", "anchors": ["sudo_pair/src/template.rs: Spec::expand"]}
{"id": "C27", "title": "Template expansion is non-recursive and compositional", "statement": "Expanded text is never re-scanned; expanding a concatenation equals concatenating expansions when the first part does not end in an unpaired escape; any literal text can be protected by doubling the escape byte.", "quantifier": "all templates", "why_tests_cant": "all byte strings", "anchors": ["sudo_pair/src/template.rs: Spec::expand"]}
{"id": "C28", "title": "Prompt variables", "statement": "In prompts %b %B %C %d %h %H %g %p %u %U %W expand to approval binary name and path, reconstructed command, command cwd, host, terminal rows, real gid, sudo pid, real uid, user name and terminal columns of this session; every other escaped byte is literal.", "quantifier": "all environments and configurations", "why_tests_cant": "all environments", "anchors": ["sudo_pair/src/lib.rs: template_spec"]}
{"id": "C29", "title": "Option vectors parse as key=value, last wins", "statement": "Each entry is split at its first '='; an entry without '=' is both key and value; of several entries with the same key the last one wins; other keys are unaffected; entry order is irrelevant when keys are distinct; a NULL vector is empty.", "quantifier": "all vectors of NUL-free byte strings", "why_tests_cant": "unbounded vectors", "anchors": ["sudo_plugin/src/options/option_map.rs: from_raw, get_bytes"]}
{"id": "C30", "title": "Integers parse exactly", "statement": "Reading an option as an unsigned/signed N-bit integer succeeds iff the value is an optional sign ('+', or '-' for signed) and at least one decimal digit denoting a number in range, and yields that number; printing then parsing is the identity.", "quantifier": "all byte strings, widths 8,16,32,64", "why_tests_cant": "all strings", "anchors": ["sudo_plugin/src/options/traits.rs: FromSudoOption for u8..i64"]}
{"id": "C31", "title": "Lists and sets parse exactly", "statement": "Reading an option as a list succeeds iff every comma-separated element parses, and yields the elements in order; the result is never empty; one bad element rejects the whole option.", "quantifier": "all byte strings", "why_tests_cant": "all strings", "anchors": ["sudo_plugin/src/options/traits.rs: FromSudoOption for Vec<T>, HashSet<T>, FromSudoOptionList"]}
{"id": "C32", "title": "Plugin options and their defaults", "statement": "Each of the six plugin options takes the last configured value if it is valid UTF-8 and parses, and otherwise exactly the documented default; a malformed gids_exempted exempts nobody.", "quantifier": "all plugin option vectors", "why_tests_cant": "all vectors", "anchors": ["sudo_pair/src/lib.rs: From<&OptionMap> for PluginOptions"]}
{"id": "C33", "title": "A configured gids_enforced is never silently relaxed", "statement": "If the administrator configures gids_enforced, sudo to any of the listed gids requires a pair, even if another element of the list is malformed.", "quantifier": "all option vectors", "why_tests_cant": "all vectors", "anchors": ["sudo_pair/src/lib.rs: From<&OptionMap> for PluginOptions", "sudo_plugin/src/options/traits.rs"]}
{"id": "C34", "title": "UTF-8 validation", "statement": "String-typed options are accepted iff their bytes are a well-formed UTF-8 encoding of some sequence of Unicode scalar values.", "quantifier": "all byte strings", "why_tests_cant": "all byte strings", "anchors": ["sudo_plugin/src/options/option_map.rs: get_str"]}
{"id": "C35", "title": "Version words", "statement": "Packing and unpacking of API versions are mutually inverse on 16-bit components, packing is strictly monotone for the lexicographic order, and every 32-bit word is the packing of its components.", "quantifier": "all 2^32 words and all pairs", "why_tests_cant": "2^32 words", "anchors": ["sudo_plugin-sys/src/lib.rs: sudo_api_mkversion, sudo_api_version_get_major, sudo_api_version_get_minor", "sudo_plugin/src/version.rs"]}
{"id": "C36", "title": "network_addrs never panics", "statement": "Parsing the network_addrs setting never panics: a malformed address list is ignored.", "quantifier": "all byte strings", "why_tests_cant": "all strings", "anchors": ["sudo_plugin/src/options/settings.rs: NetAddr::from_sudo_option"]}
{"id": "C37", "title": "The pair sees the whole command", "statement": "The reconstructed command line shown by %C starts with the program name, contains every flag that was set and every argument, complete and in order, separated by single spaces.", "quantifier": "all environments and argument vectors", "why_tests_cant": "all argument vectors", "anchors": ["sudo_plugin/src/plugin/io_env.rs: invocation", "sudo_plugin/src/options/settings.rs: flags"]}
{"id": "C38", "title": "Different invocations look different to the pair", "statement": "Two sessions that differ in argument vector or in a displayed flag show different %C text to the pair.", "quantifier": "all pairs of environments", "why_tests_cant": "pairs of argument vectors", "anchors": ["sudo_plugin/src/plugin/io_env.rs: invocation"]}
{"id": "C39", "title": "Group set of the command", "statement": "runas_gids contains runas_egid and, besides it, exactly the policy's runas_groups if given and the invoker's groups otherwise.", "quantifier": "all environments", "why_tests_cant": "all environments", "anchors": ["sudo_plugin/src/plugin/io_env.rs: runas_gids"]}
{"id": "C40", "title": "User messages are printed verbatim", "statement": "Text the plugin sends to the invoking user through sudo's printf facility appears verbatim.", "quantifier": "all messages without NUL bytes", "why_tests_cant": "all byte strings", "anchors": ["sudo_plugin/src/output/print_facility.rs: write, write_line, write_error"]}
{"id": "C41", "title": "Error reporting terminates", "statement": "Reporting an error to the user prints the error and each of its causes once and then returns.", "quantifier": "all error chains and printf answers", "why_tests_cant": "unbounded chains", "anchors": ["sudo_plugin/src/output/print_facility.rs: write_error"]}
{"id": "C42", "title": "SIGINT disposition is preserved", "statement": "Around every socket read/write/flush the SIGINT handler has SA_RESTART cleared and is otherwise unchanged, and afterwards the original disposition is reinstalled, unless a sigaction call fails.", "quantifier": "all handlers, flag words and OS schedules", "why_tests_cant": "all flag words and failure points", "anchors": ["sudo_pair/src/socket.rs: ctrl_c_aborts_syscalls"]}
{"id": "C43", "title": "Ctrl-C aborts waiting", "statement": "A SIGINT while waiting for the pair to connect or to answer makes open return -1; a SIGINT while mirroring output never loses or duplicates bytes.", "quantifier": "all OS schedules", "why_tests_cant": "all interrupt points", "anchors": ["sudo_pair/src/socket.rs: Socket::open, Read for Socket", "sudo_pair/src/lib.rs: remote_pair_prompt, log_output"]}
{"id": "C44", "title": "write_all delivers exactly the buffer", "statement": "write_all on the pair socket succeeds iff the accepted chunks add up to exactly the buffer; on failure the accepted bytes are a prefix of the buffer.", "quantifier": "all buffers and write schedules", "why_tests_cant": "all schedules", "anchors": ["sudo_pair/src/socket.rs: Write for Socket (std write_all)", "sudo_pair/src/lib.rs: log_output"]}
{"id": "C45", "title": "Local prompt problems never block or decide", "statement": "Failure to read prompt files, open or write the tty or print to stderr never changes whether the session is approved; missing prompt files give the built-in default prompts.", "quantifier": "all OS schedules for the local prompt", "why_tests_cant": "all failure combinations", "anchors": ["sudo_pair/src/lib.rs: local_pair_prompt, remote_pair_prompt"]}
{"id": "C46", "title": "Socket mode is always defined", "statement": "For every session that needs a pair and is not rejected for -u/-g, the socket mode is determined (user-writable or group-writable), i.e. the unreachable! in socket_mode is unreachable.", "quantifier": "all environments", "why_tests_cant": "all environments", "anchors": ["sudo_pair/src/lib.rs: socket_mode"]}
{"id": "C47", "title": "Path comparison", "statement": "The approval-command exemption matches exactly the commands whose path equals binary_path up to redundant slashes and interior '.' components.", "quantifier": "all pairs of paths", "why_tests_cant": "all byte strings", "anchors": ["sudo_pair/src/lib.rs: is_sudoing_approval_command (std PathBuf ==)"]}
{"id": "C48", "title": "Approval script forbids self-approval", "statement": "sudo_approve never connects to a session's socket on behalf of the user whose uid is in the session's name.", "quantifier": "all arguments, environments and socket attributes", "why_tests_cant": "all environments", "anchors": ["sample/bin/sudo_approve: main"]}
{"id": "C49", "title": "State is never stale", "statement": "After open, callbacks operate on the environment given to that open.", "quantifier": "all callback histories including repeated open", "why_tests_cant": "all histories", "anchors": ["sudo_plugin/src/plugin/io_state.rs: init", "sudo_plugin/src/core.rs: open"]}
{"id": "C50", "title": "Debug and release builds decide alike", "statement": "For an environment satisfying sudo's documented consistency rules, the decision does not depend on whether debug assertions are compiled in; when they differ the debug build refuses.", "quantifier": "all environments", "why_tests_cant": "all environments", "anchors": ["sudo_pair/src/lib.rs: is_sudoing_to_themselves", "sudo_plugin/src/plugin/io_env.rs: runas_gids"]}
{"id": "C51", "title": "Running as oneself really means no new privileges", "statement": "A session exempted because the user is sudoing to themselves gives the command no uid or gid the user did not already have.", "quantifier": "all environments", "why_tests_cant": "all environments", "anchors": ["sudo_pair/src/lib.rs: is_sudoing_to_themselves"]}
{"id": "C52", "title": "Typed environment mirrors sudo's vectors", "statement": "Each typed field of user_info, command_info and settings equals the parsed value of its key, or its documented default (runas_euid falls back to runas_uid, which falls back to the effective uid, etc.).", "quantifier": "all option vectors", "why_tests_cant": "all vectors", "anchors": ["sudo_plugin/src/options/user_info.rs", "sudo_plugin/src/options/command_info.rs", "sudo_plugin/src/options/settings.rs"]}
{"id": "C53", "title": "deny_everything denies everything", "statement": "The example approval plugin's check callback returns 0 in every history, and sets errstr iff open was called with API version >= 1.17 and a printf function.", "quantifier": "all histories", "why_tests_cant": "all histories", "anchors": ["examples/raw_plugin_api/src/lib.rs"]}
{"id": "C54", "title": "Interactions happen in the right order", "statement": "The local prompt precedes the creation of the socket; the directory is vetted before the stale socket is removed, that before bind, then chown, chmod, select, accept, unlink; the pair prompt is sent only after accept and the reply is read only after the complete prompt.", "quantifier": "all OS schedules", "why_tests_cant": "all schedules", "anchors": ["sudo_pair/src/lib.rs: SudoPair::open", "sudo_pair/src/socket.rs: Socket::open"]}
{"id": "C55", "title": "Every callback ends", "statement": "Each callback performs a number of system interactions bounded in terms of its inputs and the prompt sizes (repetitions of interrupted writes aside) and returns a value whenever the system keeps answering; it reads at most two files.", "quantifier": "all callbacks, states, arguments and OS schedules", "why_tests_cant": "unbounded schedules and buffers", "anchors": ["sudo_plugin/src/core.rs", "sudo_pair/src/lib.rs: open, log_output", "sudo_pair/src/socket.rs"]}
{"id": "C56", "title": "Version callback", "statement": "show_version returns 1 and shows exactly the version line (or a beginning of it if printing fails) when an environment is stored, returns -1 and does nothing otherwise, and never touches the state.", "quantifier": "all states and printf behaviours", "why_tests_cant": "all failure points and states", "anchors": ["sudo_plugin/src/core.rs: show_version", "sudo_plugin/src/plugin/io_plugin.rs: show_version"]}
{"id": "C57", "title": "The suggested approval command reaches the session", "statement": "sudo_approve called with the values that the prompt shows for %u and %p tests and connects to the very socket on which the plugin waits (default socket directory) and no other, and does connect for another user with write permission.", "quantifier": "all sessions, callers and command results", "why_tests_cant": "all uids, pids and command outcomes", "anchors": ["sample/bin/sudo_approve: main", "sudo_pair/src/lib.rs: socket_path, template_spec"]}
{"id": "C58", "title": "The plugin framework is fail-closed for every plugin", "statement": "For every IoPlugin implementation, however it behaves, the C callbacks generated by sudo_plugin never let a panic escape, return only codes of the sudo API, return 1 only if the plugin accepted (or declares its error as acceptance, or the policy did not ask for the data and the plugin does not insist on it, or the command is empty), refuse without a session, report an error of the plugin to the user, under the plugin's name, before they return the code it is declared to mean, and use a stored plugin only with the environment it was opened with and only until close; the callbacks of sudo_pair are the instance for SudoPair.", "quantifier": "all plugins (arbitrary effectful code), error mappings, callback histories, arguments and OS schedules", "why_tests_cant": "quantifies over all plugin implementations and all histories", "anchors": ["sudo_plugin/src/core.rs", "sudo_plugin/src/plugin/io_state.rs: init, drop", "sudo_plugin/src/plugin/io_plugin.rs", "sudo_plugin/src/macros.rs"]}
{"id": "C59", "title": "The pair sees everything first", "statement": "Under sudo's documented front-end behaviour (start the command only if open returned 1, pass a piece of data on only if its log callback returned 1, otherwise terminate), at every instant of a session that is not exempt and names a decodable command: the command was started only after a pair approved on the socket; everything passed on from logged output facilities, and every resize, was accepted by the pair's socket before, completely and in order; and no logged redirected standard input reached the command.", "quantifier": "all arguments, OS schedules, sequences of log callbacks and every prefix of the interleaved actions of sudo and the plugin", "why_tests_cant": "quantifies over every instant of every execution, including partial writes and deaths in mid-callback", "anchors": ["sudo_pair/src/lib.rs: open, log_ttyout, log_stdin, log_stdout, log_stderr, change_winsize", "sudo_plugin/src/core.rs"]}
{"id": "C60", "title": "The unsafe decoding of sudo's arguments is memory-safe under sudo's contract, and exact", "statement": "CStr::from_ptr, OptionMap::from_raw, the argv slice and the buffer slices of the log callbacks are defined (terminate, read only memory sudo provides, no NULL or misaligned dereference) exactly on memory that follows sudo's contract, and then yield exactly the strings stored there; open and the log callbacks on raw pointers equal their counterparts on decoded arguments; an unsupported version is refused before any pointer is looked at, and a buffer is looked at only in a session whose facility is logged.", "quantifier": "all memories (partial maps) of 64-bit and 32-bit targets, addresses, vectors and strings of any length, argc, len and states", "why_tests_cant": "quantifies over all memory layouts, including ones that would crash the test", "anchors": ["sudo_plugin/src/options/option_map.rs: from_raw", "sudo_plugin/src/plugin/io_env.rs: new", "sudo_plugin/src/core.rs: open, log_*"]}
{"id": "C61", "title": "The built-in and shipped prompts say what they should", "statement": "For every session, the built-in prompt for the pair and the one shipped in sample/etc consist of fixed text, the invoking user, the host, the working directory and the whole reconstructed command, in this order; the prompts for the user contain the approval command with the uid and pid of the session; the built-in one determines uid and pid and hence, for a given socket_dir, the socket.", "quantifier": "all sessions (environments and plugin options), any contents of the variables", "why_tests_cant": "quantifies over all values of all variables, including ones containing percent signs", "anchors": ["sudo_pair/src/lib.rs: DEFAULT_USER_PROMPT, DEFAULT_PAIR_PROMPT, template_spec", "sample/etc/sudo_pair.prompt.pair", "sample/etc/sudo_pair.prompt.user"]}
{"id": "C62", "title": "The approval script takes the identity that may answer", "statement": "Called by another user who may not write to the socket, sudo_approve only looks at the socket and then calls itself through sudo as the socket's owner if the owner may write, else as its group if the group may write, else gives up. With the owner, group and mode that the plugin sets this is the user or explicit group the session is for, and the second run connects to the session's socket.", "quantifier": "all sessions, callers, owners, groups, modes and command results", "why_tests_cant": "all modes, uids and command outcomes; composition of plugin and script", "anchors": ["sample/bin/sudo_approve: main", "sudo_pair/src/lib.rs: socket_uid, socket_gid, socket_mode"]}
{"id": "C63", "title": "Every callback is exactly the documented protocol", "statement": "Every callback, in every state and under every behaviour of the operating system, performs exactly the interactions of one fixed state machine - read the user's prompt, show it on the terminal or through sudo, vet the directory, clear away a stale socket, create the socket under umask 0777, give it away and open it, wait for one connection, remove the socket, restore the umask, send the prompt, read one byte, echo it - in the same order and with the same arguments, and ends with the verdict, the return value, the message and the state of that machine. Whole histories of callbacks follow the machine and nothing else, and no callback lets a panic out.", "quantifier": "all callbacks, states, arguments, histories of callbacks and schedules of answers of the system", "why_tests_cant": "quantifies over every sequence of answers, failures and partial writes at every point of every callback", "anchors": ["sudo_pair/src/lib.rs: SudoPair", "sudo_pair/src/socket.rs: Socket", "sudo_plugin/src/core.rs: open, close, show_version, log_*, change_winsize"]}
{"id": "C64", "title": "Arguments that cannot be used are rejected with the message that fits", "statement": "open rejects its arguments exactly if the API version is older than 1.9, or else a required setting, or else a required fact about the user is missing, is not text, or is not of its form; the message names the version, or the first such key in the documented order and its value. It crashes exactly on a network_addrs with an address without netmask after well-formed elements, if the settings are otherwise in order. All other arguments are accepted, and then determine every field of the environment.", "quantifier": "all API versions, option vectors and address parsers", "why_tests_cant": "an equivalence over all vectors, including repeated, malformed and non-UTF-8 entries", "anchors": ["sudo_plugin/src/plugin/io_env.rs: IoEnv::new", "sudo_plugin/src/options/user_info.rs: TryFrom", "sudo_plugin/src/options/settings.rs: TryFrom", "sudo_plugin/src/errors.rs: Error"]}
{"id": "C65", "title": "The exported table puts every callback where sudo looks for it", "statement": "For every plugin built with sudo_io_plugin! and every callback sudo makes, the function sudo finds in the slot that sudo_plugin.h assigns to that callback, on 32-bit and 64-bit targets, is the one that runs that callback of the plugin with the arguments sudo passed; no slot is shared or overlapped. The table announces an I/O plugin for API version 1.17 and offers no function for hooks, suspension or event allocation. The table of the example plugin is laid out and filled in the same way.", "quantifier": "all plugins, callbacks, arguments and states, both pointer sizes", "why_tests_cant": "holds for every plugin the macro can be given and ties the binary layout to the meaning of each call", "anchors": ["sudo_plugin/src/macros.rs: sudo_io_plugin!", "sudo_plugin-sys/src/lib.rs: io_plugin::empty, approval_plugin::empty, SUDO_API_VERSION", "sudo_plugin-sys/src/bindings: io_plugin, approval_plugin", "examples/raw_plugin_api/src/lib.rs: deny_everything"]}
{"id": "C66", "title": "The log tells how each session ended", "statement": "Logging does not change what the plugin does. The records that every build emits (info and above) tell the story of each session in order: an exempt session is recorded as exempt and by nothing else; a session that needs a pair is recorded as required, then waiting, connected, approved and started, or the sequence stops short of 'approved'. open returns success only with the exempt record or with all of these, and the 'approved' record is made only after the pair answered y or Y. Every record but the very first carries the user, the target ids, the command and its arguments. close records the end exactly if a pair is connected, and over every history no more sessions are recorded to end than to start. The decision about exemption is recorded with the first reason that applies.", "quantifier": "all environments, schedules of OS replies and crashes, and histories of callbacks", "why_tests_cant": "ranges over every point at which a session can fail and every interleaving of records with system calls", "anchors": ["sudo_pair/src/lib.rs: every slog macro call in SudoPair", "sudo_plugin/src/core.rs and macros.rs: LOGGER"]}
{"id": "C67", "title": "Who is on the other end of the approval socket", "statement": "However other processes act in between the plugin's system calls, within their POSIX permissions, and whatever state the socket directory was in before: the peer of the connection that the plugin accepts connected after the directory was inspected and is root, or the target user (sudo to a user), or a member of the target group (sudo -g), unless root, the plugin's own user or the target user changed the socket or the directory in between. Hence a session that is not exempt and is accepted was answered y or Y by such a peer, and the invoking user, acting alone and not root, cannot get their own session accepted except for sudo -g to a group they hold. (Target ids other than 4294967295, commands that decode to a non-empty path.)", "quantifier": "all sessions, schedules of OS replies, initial states of the directory, and interleavings with any number of actions of any processes", "why_tests_cant": "races between the plugin and arbitrary other processes: every interleaving of connect, chmod, chown, unlink, rename and bind", "anchors": ["sudo_pair/src/socket.rs:38-125 Socket::open", "sudo_pair/src/socket.rs:150-226 enforce_ownership", "sudo_pair/src/lib.rs:564-624 socket_uid, socket_gid, socket_mode"]}
{"id": "C68", "title": "Exactly when a session is refused, and which sessions can be allowed at all", "statement": "A call of open that returns, returns 1 or -1. It returns -1 exactly if the arguments are not acceptable, or a command is to be run and either a debug build finds sudo's rules broken, or the session is not exempt and the socket has no single intended peer (-u and -g together, or neither although a pair is needed), or the socket's path contains a NUL, or one of a fixed list of mishaps occurs: the directory is not a root-owned one that others cannot write to, something else is in the socket's place or a stale socket cannot be removed, the socket cannot be bound, owned, opened or waited for, nobody connects, the prompt cannot be delivered, the answer read is not y or Y, signals cannot be arranged while the prompt is sent or the answer read, or a write claims to have accepted more than it was offered. Nothing else refuses a session: failing to read the prompt files, to print to the user, to restore the umask or remove the socket afterwards, or to echo the answer. Conversely a session for which none of the static causes holds can be allowed by some behaviour of the system and the pair.", "quantifier": "all arguments, states left by earlier callbacks, builds and schedules of answers of the system", "why_tests_cant": "The claim is an equivalence over all runs: it says of every reply of the system at every point whether it refuses the session, which requires all interleavings of failures and successes, including impossible ones such as a write that overcounts.", "anchors": ["sudo_pair/src/lib.rs:170-345", "sudo_pair/src/lib.rs:402-600", "sudo_pair/src/socket.rs:40-290", "sudo_plugin/src/core.rs:1-260"]}
{"id": "C69", "title": "Reaching the approval socket through its directory", "statement": "Connecting needs the search permission of the socket directory besides the write permission of the socket. The peer of an accepted connection is one of those of C67 who moreover may search the directory as it was when the plugin inspected it, unless an insider changed things since. So in a directory without execute bits (mode 0644, as README and Makefile create it), which the plugin accepts, only root can approve; sudo_approve started by anybody who may not search the directory stops at its first look at the socket, neither connecting nor calling itself through sudo. With mode 0755 (Debian package) the search permission excludes nobody.", "quantifier": "all sessions, schedules of OS replies, initial states of the directory, interleavings with actions of any processes, and runs of the script", "why_tests_cant": "ranges over all interleavings with other processes and all directory modes; the failure only shows with a non-root approver on a host set up as the README says", "anchors": ["sudo_pair/src/socket.rs:150-226 enforce_ownership", "sample/bin/sudo_approve:51-105", "sudo_pair/README.md:58-59", "sample/Makefile:27", "contrib/DEBIAN/postinst:6"]}
{"id": "C70", "title": "What the log shows of a session", "statement": "The texts in the log do not misrepresent the session. A byte string is shown as the text it encodes, with U+FFFD for each maximal part that encodes none, so that two different well-formed texts look different. The arguments are shown so that the boundaries between them can be told from the text whatever they contain, on one line and without unprintable characters. Records of two sessions that look the same are about the same user, the same target user and group, and a command and arguments that read the same. The command itself is shown unescaped. The options that the log shows are those that the session is decided by, on one line; options that look the same have the same paths and the same sets of gids, in whatever order these are shown.", "quantifier": "all byte strings, argument lists, escaping rules for printable characters, sessions, and schedules of OS replies", "why_tests_cant": "ranges over all byte strings and pairs of argument lists; a confusion needs two particular sessions to be compared", "anchors": ["sudo_pair/src/lib.rs:119-130 session logger", "sudo_pair/src/lib.rs:298-307 socket logger", "sudo_pair/src/lib.rs:675-722 PluginOptions (derived Debug)", "sudo_pair/src/lib.rs:759-763 slog::Value for PluginOptions"]}
{"id": "C71", "title": "Plugin tables of every kind follow the header", "statement": "A table of any of the four kinds that sudo_plugin-sys defines (policy, I/O, audit, approval), whatever functions are put into it, is laid out in memory as sudo_plugin.h says: type, version and each callback where sudo looks for it, for pointers of four and of eight bytes. The empty tables have the type number of their kind, API version 1.17, and no callbacks.", "quantifier": "all contents of the tables, both sizes of pointers", "why_tests_cant": "the generated layout tests compare offsets of one target with literals; a table whose callbacks are swapped in lib.rs still has the right layout", "anchors": ["sudo_plugin-sys/src/lib.rs:215-303 empty()", "sudo_plugin-sys/src/bindings/*.rs struct policy_plugin, io_plugin, audit_plugin, approval_plugin"]}
{"id": "C72", "title": "Arguments of calls from C arrive in their places", "statement": "When sudo makes a callback, it passes the arguments in the order of the prototype in sudo_plugin.h to the function in the callback's slot. What then runs is the code of that callback on exactly these arguments: none of the many pointers and integers of equal type is taken for another on the way through the extern function and IoEnv::new, integers are taken from the lower half of a register whatever the upper half holds, and signs are kept. The same holds of the example approval plugin.", "quantifier": "all plugins, callbacks, arguments, memory contents of 64-bit and 32-bit targets, and states", "why_tests_cant": "the parameters have the same C types, so that neither compiler nor linker notices a swap, and sudo itself is needed to make the call", "anchors": ["sudo_plugin/src/core.rs:131-357 extern functions", "sudo_plugin/src/plugin/io_env.rs:103-116 IoEnv::new", "examples/raw_plugin_api/src/lib.rs:84-134"]}
{"id": "C73", "title": "Sessions at the same time do not disturb each other", "statement": "Every file that the plugin creates, removes or changes, in any sequence of callbacks, is named after the uid and the pid of a session that it was opened for. So any number of other processes with the plugin, started for sessions that differ in uid or pid, and interleaved in any way, have no effect on the approval socket and the socket directory of a session; what C67 says about who can be on the other end of the socket holds among them as well, and a user who is not root does not get a session accepted by starting more of them. (Premises: every path that leads to the socket has the socket's name, and no path to the directory has a name of the form uid.pid.sock.)", "quantifier": "all sessions, any number of other plugin processes with any sequences of callbacks, schedules of OS replies, and interleavings", "why_tests_cant": "ranges over every interleaving of any number of concurrent sessions with each other and with other processes", "anchors": ["sudo_pair/src/lib.rs:555-570 socket_path", "sudo_pair/src/socket.rs:38-125 Socket::open", "sudo_pair/src/socket.rs:150-226 enforce_ownership"]}
{"id": "C74", "title": "What the plugin's behaviour depends on", "statement": "Of what sudo passes to open, only the API version, the presence of the printf pointer, the argument vector and the values of 20 keys of settings, 14 of user_info, 11 of command_info (12 in debug builds) and 6 plugin options have an influence on the plugin: two processes whose sequences of callbacks differ in anything else (environment variables, other keys, order of entries, entries overridden by later ones) and which get the same replies from the operating system make the same system calls, with the same arguments, write the same records of all levels to the log, and their callbacks end in the same way. Each of these keys does have an influence.", "quantifier": "all sequences of callbacks, all pairs of argument vectors that agree on the listed keys, all schedules of OS replies", "why_tests_cant": "non-interference relates two executions and ranges over all vectors and all replies", "anchors": ["sudo_plugin/src/plugin/io_env.rs:103-156 IoEnv::new", "sudo_plugin/src/options/settings.rs:273-309", "sudo_plugin/src/options/user_info.rs TryFrom", "sudo_plugin/src/options/command_info.rs TryFrom", "sudo_pair/src/lib.rs:735-757 PluginOptions", "sudo_plugin/src/core.rs:131-357 callbacks"]}
{"id": "C75", "title": "The complete log", "statement": "All records that the plugin makes, of every level, are known from what happens. Of an open with usable arguments and a command: in a debug build whose assertions trip, the two opening records and that the session is given up; otherwise, if it succeeds, exactly the records of an exempt session with the first reason that holds or those of an approved one (and that the new session is given up if there already was one); if it refuses, a part of one of the four courses (exempt, both -u and -g, approved, declined), not all of one that succeeds, and then that the session is given up. Other opens record nothing. Close records the end of the session; an output callback only how many bytes it took, and no byte of them; stdin only the decision. An answer that is recorded is the one that was read. Over any history, each session that begins is recorded to be given up exactly once, unless it is still there.", "quantifier": "all arguments, builds, states, schedules of OS replies, and sequences of callbacks", "why_tests_cant": "ranges over all inputs, every way for the system calls to fail, and all sequences of callbacks", "anchors": ["sudo_pair/src/lib.rs:114-245 SudoPair::open, close, log_output", "sudo_pair/src/lib.rs:247-460 prompts and is_exempt", "sudo_pair/src/lib.rs:669-673 Drop"]}
{"id": "C76", "title": "From consent to the screen", "statement": "With sudo's front end, processes without the plugin acting within their permissions, and any number of other sessions with the plugin, all interleaved: in a session that is not exempt, whose user and group ids are not ones chown ignores, the command is started only after somebody who may act for the target has connected to this session's socket (or an insider has interfered with it), has been sent the whole prompt of this session on that connection, nothing having been read before, and has answered y or Y on it. Nothing is passed on before that, and after it, at every instant, all that sudo has passed on has been sent on that connection before, in order. If all other processes are the invoking user's, who is neither root nor the plugin's user, the command is started only if they asked for a group which they are a member of.", "quantifier": "all arguments, builds, replies of the OS, behaviours of the front end and of other processes and sessions, and instants", "why_tests_cant": "ranges over all interleavings of unboundedly many processes", "anchors": ["sudo_pair/src/lib.rs:114-245 SudoPair::open, log_output", "sudo_pair/src/lib.rs:337-385 remote_pair_prompt", "sudo_pair/src/socket.rs:38-228 Socket::open"]}
{"id": "C77", "title": "Nobody else sees the session", "statement": "In any state, all that a log_* callback or change_winsize does with the system is to set the handler of Ctrl-C, to write pieces of its data to the connection of the pair that approved the session, provided that the data is output that sudo was told to log, and to show error messages with fixed texts. So from the start of the command to its end the plugin gives no part of the output to anybody else and no part of the input to anybody, opens no file, and reads nothing from the pair. In an exempt session it writes nothing at all.", "quantifier": "all states, callbacks, data, replies of the OS, and sessions", "why_tests_cant": "ranges over all data and all ways for the writes to fail, over sessions of any length", "anchors": ["sudo_pair/src/lib.rs:209-253 log_*, change_winsize", "sudo_plugin/src/core.rs:212-365 callbacks", "sudo_plugin/src/output/print_facility.rs:71-115 PrintFacility"]}
{"id": "C78", "title": "Descriptors", "statement": "Over any sequence of callbacks, the plugin uses each descriptor it opens (the listening socket, the connection to the pair, the user's terminal) only while it is open: it waits and accepts on a listening socket, reads and writes on a connection that has not been shut down, and writes on a terminal. It closes each one exactly once, also when an error or a panic cuts the work short, and a connection only after shutting it down, so that the pair is told. At most three are open at a time. When a callback has returned, nothing is open except the one connection on which a pair approved the session, opened by an open that returned 1 and that no close has followed; after close, and after a refused first open, nothing is.", "quantifier": "all sequences of callbacks, arguments, builds and replies of the OS, including panics and death at any system call", "why_tests_cant": "ranges over all sequences of callbacks and every way for the system calls to fail", "anchors": ["sudo_pair/src/socket.rs:38-129 Socket::open, close", "sudo_pair/src/socket.rs:229-233 Drop", "sudo_pair/src/lib.rs:114-207 SudoPair::open, close", "sudo_pair/src/lib.rs:286-293 the user's terminal"]}
{"id": "C79", "title": "Configurations do what the documentation says", "statement": "If the options behind the plugin's name in sudo.conf are any selection of the six documented ones, in any order, with UTF-8 paths and comma-separated lists of gids, then the plugin uses exactly these values, and the documented defaults for the others; open then returns 1 for a session with a command only if the session is exempt by the documented rule with these gids and this approval binary, or a pair approved it on <socket_dir>/<uid>.<pid>.sock after the prompt from pair_prompt_path. With the line that sample/Makefile writes (gids_enforced=<gid of nogroup>) nobody is asked about a command that does not run with that group, root's included.", "quantifier": "all configurations, orders, sessions and operating-system answers", "why_tests_cant": "Configurations and sessions are unbounded; tests try a few values of single options.", "anchors": ["sudo_pair/README.md:101-143", "sudo_pair/src/lib.rs:676-763", "sample/etc/sudo.conf:11", "sample/Makefile:20,35"]}
{"id": "C80", "title": "Exit status of the approval script", "statement": "sudo_approve reports success (status 0) if and only if what it was called for succeeded, that is the connection to the socket or its own run under another identity, and the terminal could be restored; through any number of runs by way of sudo, success means that one of them was connected to the socket of the very session named by the arguments and that the connection ended without an error. It ends with 1 for a user's own session and for a wrong number of arguments, with 2 if nobody may write to the socket, and otherwise with the status of the command that failed, or with 1 if a text that should be a number is none.", "quantifier": "all arguments, environments, command results and chains of runs", "why_tests_cant": "Every command may fail with any status at any point, and runs nest through sudo.", "anchors": ["sample/bin/sudo_approve:17-19,25-49,51-110"]}
{"id": "C81", "title": "Where the log goes", "statement": "The records of a session go to journald if that feature is on, otherwise to syslog (the local socket, facility auth) if that feature is on and syslog could be reached when the session began, otherwise nowhere; they carry the plugin's name and version. A session keeps to the log that it found when it began. The log gets exactly the records of the levels that are compiled in, in order. Whenever open lets a command run and a log was found, that log is told that the session was exempt or that a pair approved it. Nothing that sudo or the system sees depends on the features, on the level, or on whether syslog can be reached: in particular sessions go on, without any record, when it cannot.", "quantifier": "all builds, levels, environments, schedules of OS replies, moments at which syslog is reachable, and histories of callbacks", "why_tests_cant": "ranges over all builds and over every pattern of reachability along every history", "anchors": ["sudo_pair/src/lib.rs:765-806 slog", "sudo_pair/src/lib.rs:115 slog(Self::NAME, Self::VERSION)", "sudo_pair/Cargo.toml:21-25 features", "sample/Makefile:18 CARGOFLAGS"]}
{"id": "C82", "title": "What make install installs is where the plugin looks", "statement": "With the line for sudo.conf that the Makefile writes, the options of the plugin are its defaults but for the enforced group, which is that of nogroup (gid 0 if there is no such group). Then the script, the prompts and the directory of the sockets are found exactly if bindir is a spelling of /usr/bin, sysconfdir of /etc and runstatedir of /var/run. No single prefix does for the script together with any of the others; the Makefile's own default finds none of them, the variables of the Dockerfile all. If the script is not found, running it through sudo, in the enforced group, needs a pair itself; if it is, nobody is asked. The Debian package has the script and the directory in place, but no prompt, and a library of another name than its sample line loads. So do the commands of the README, whose directory of the sockets nobody may search; the RPM package has nothing in place. Nobody but the owner may write what is installed.", "quantifier": "all values of the variables of the Makefile, all gids, all sessions and schedules of OS replies", "why_tests_cant": "ranges over all paths and their spellings, and all sessions", "anchors": ["sample/Makefile:5-35", "Dockerfile:100", "contrib/make_deb_pkg.sh:22-39", "contrib/DEBIAN/postinst:6-22", "sudo_pair/src/lib.rs PluginOptions defaults"]}
{"id": "C83", "title": "What the pair sees of the prompt", "statement": "If the user name, the host, the working directory and the reconstructed command line consist of printable characters, then on a cleared terminal the built-in prompt and the shipped one show exactly these, on one line, among fixed text; when open allows a session that is not exempt with one of these prompts, this is what the pair had in front of them when they answered; and with the same user, host and directory, different command lines look different. Without that condition nothing of this holds: for every session, any arguments really meant and any other printable arguments, one further argument makes the pair's terminal show exactly the prompt of a session with the latter.", "quantifier": "all sessions and argument vectors; for the forgery, all pairs of argument vectors", "why_tests_cant": "The claim is about every command line, and its failure about every pair of command lines.", "anchors": ["sudo_pair/src/lib.rs:97,337-395,626-650", "sudo_plugin/src/plugin/io_env.rs:193-208", "sample/etc/sudo_pair.prompt.pair:1-8", "sample/bin/sudo_approve:26-43"]}
{"id": "C84", "title": "The pair's terminal follows the user's", "statement": "In a session that is not exempt and whose terminal output sudo is told to log, and in which no output goes elsewhere: at every instant from the start of the command on, any terminal to which everything is handed that the pair has received since is in the state of the user's terminal (if both were in the same state at the start), but for an initial piece of the callback in progress, and is in the same state whenever sudo has just gone on after a callback; provided that the terminal takes the control sequence that sets its size whenever a resize is reported. For a terminal of lines, cursor and size, this is the case exactly if the resize is not reported within another control sequence; then the pair sees below their prompt exactly what the user sees below theirs, and after the first resize in a window of the same size. Without that condition the two see different text.", "quantifier": "all sessions, all output and resizes, all instants, all terminals", "why_tests_cant": "The claim is about every terminal and every sequence of output; a test looks at one terminal and a few outputs.", "anchors": ["sudo_pair/src/lib.rs:209-267", "sample/bin/sudo_approve:26-43", "sudo_plugin/src/plugin/macros.rs:198-330"]}
{"id": "C85", "title": "When the loss of the pair is noticed", "statement": "Suppose that at some instant of a session that is not exempt the connection to the pair is lost, so that nothing written to it is accepted any more. Then all output of logged facilities and all resizes that sudo ever passes on had been received by the pair before; and of the callbacks made afterwards, sudo goes on exactly after those that have nothing for the pair (keys, facilities that are not logged, empty output) and are not input to be refused. After any number of these it does go on, without any action of the plugin: the loss is noticed with the first callback that has something for the pair, and not immediately, as the shipped prompt for the pair says.", "quantifier": "all sessions, all instants of the loss, all callbacks", "why_tests_cant": "Any instant of the loss and any continuation; that nothing happens for an unlimited number of callbacks cannot be tested.", "anchors": ["sudo_pair/src/lib.rs:209-267", "sudo_plugin/src/core.rs:213-357", "sample/etc/sudo_pair.prompt.pair:7"]}
{"id": "C86", "title": "The command the user passes on, as a shell reads it", "statement": "The built-in prompt for the user is one line that a shell reads as the path of the approval script with two arguments, the uid and the pid of the session, if the path consists of characters that mean themselves to a shell; and run so by another user who may write to the socket, the script connects to the session. The command on the line of the shipped prompt is read as docker exec with a single word after the container, made of the path and the numbers together, which is not the path of the script.", "quantifier": "all sessions (environments and plugin options), all callers", "why_tests_cant": "All paths, hosts and numbers.", "anchors": ["sudo_pair/src/lib.rs:96,268-296,626-666", "sample/etc/sudo_pair.prompt.user:5", "sample/bin/sudo_approve:56-121"]}
{"id": "C87", "title": "The commands chosen in sudoers", "statement": "With sudoers as the README describes it, exactly the commands whose output sudoers wants logged need a pair, unless they are exempt for one of the other reasons: without log_output and LOG_OUTPUT nobody is asked about anything; with Defaults log_output and a last line of NOLOG_OUTPUT commands these are allowed to these users without a pair and nothing else is; with a last line of LOG_OUTPUT commands exactly these are paired. If sudoers does not ask for input to be logged too, as in both examples of the README and in the shipped file, then every paired session can be piped to; if it does, redirected input is refused.", "quantifier": "all sudoers files (specifications with users, groups, commands, tags and negations; both Defaults), requests, sessions, payloads and operating-system answers", "why_tests_cant": "All policies, requests and sessions.", "anchors": ["README.md:82-103,203-210", "sample/etc/sudoers.d/sudo_pair:1", "sudo_pair/src/lib.rs:221-228,402-460,497-507", "sudo_plugin/src/core.rs:213-340", "sudo_plugin/src/options/command_info.rs:28-236"]}
{"id": "C88", "title": "The approver's terminal", "statement": "Whenever the approval script has connected its caller to a session, the caller's terminal hands over every key at once, shows none of them, passes Ctrl-C on like any other key and ends the connection on Ctrl-D; hence a session approved from that terminal was approved by the first key pressed. When the script ends, wherever it ends, and however often it called itself through sudo, the terminal is as it was before, provided its settings could be read and set.", "quantifier": "all arguments, environments, outcomes of the script's commands, terminal settings, keys and sessions", "why_tests_cant": "All outcomes of all commands and all terminal settings; all sequences of keys.", "anchors": ["sample/bin/sudo_approve:25-44", "README.md:183-201", "sample/etc/sudo_pair.prompt.pair:7", "sudo_pair/src/lib.rs:363-386"]}
{"id": "C89", "title": "Network addresses", "statement": "A text is read as a network address exactly if it is one: four decimal numbers below 256 without superfluous zeros, with dots between them, or the notation of RFC 4291 (eight groups of up to four hexadecimal digits with colons between them, one run of zero groups may be written ::, the last two groups may be written as an IPv4 address). No text denotes two addresses, every address has a text. A list of addresses with netmasks is read as just that; the conversion crashes exactly if an address without a netmask follows elements that are in order, and then open refuses without doing anything else.", "quantifier": "all byte strings, all addresses, all lists of them", "why_tests_cant": "The grammar has infinitely many texts around its boundaries; tests see a few.", "anchors": ["sudo_plugin/src/options/settings.rs:311-342", "sudo_plugin/src/options/traits.rs:128-135"]}
