{
 "claims": [
  {
   "property": "C01",
   "status": "proved",
   "theorems": [
    "PT.Props.C01_int2uint64",
    "PT.Props.C01_int2uint32",
    "PT.Props.C01_uint2int64",
    "PT.Props.C01_uint2int32",
    "PT.Props.C01_word_aliases",
    "PT.Props.C01_inverse64",
    "PT.Props.C01_inverse32"
   ],
   "note": "all integers, both widths and the word-size aliases"
  },
  {
   "property": "C02",
   "status": "proved",
   "theorems": [
    "PT.Props.C02_word_roundtrip",
    "PT.Props.C02_bytes_roundtrip",
    "PT.Props.C02_rejects"
   ],
   "note": "both byte orders and word sizes; rejection of out-of-range words and wrong lengths"
  },
  {
   "property": "C03",
   "status": "proved",
   "theorems": [
    "PT.Props.C03_null",
    "PT.Props.C03_lossless",
    "PT.Props.C03_injective",
    "PT.Props.C03_width",
    "PT.Props.C03_halfword",
    "PT.Props.C03_range_injective"
   ],
   "note": "non-negative addresses"
  },
  {
   "property": "C04",
   "status": "partial",
   "theorems": [
    "PT.Props.C04_port_partial",
    "PT.Props.C04_address_partial",
    "PT.Props.C04_refuted_big_endian"
   ],
   "note": "the code swaps unconditionally: proved for little-endian hosts, refuted for big-endian hosts"
  },
  {
   "property": "C05",
   "status": "proved",
   "theorems": [
    "PT.Props.C05_exact",
    "PT.Props.C05_succeeds",
    "PT.Props.C05_raises",
    "PT.Props.C05_reads_only"
   ],
   "note": "PTRACE_PEEKTEXT path, arbitrary per-request failures; both byte orders and word sizes"
  },
  {
   "property": "C06",
   "status": "proved",
   "theorems": [
    "PT.Props.C06_exact",
    "PT.Props.C06_succeeds"
   ],
   "note": "arbitrary kernel answers; plus a sufficient condition for success"
  },
  {
   "property": "C07",
   "status": "proved",
   "theorems": [
    "PT.Props.C07_read_back",
    "PT.Props.C07_write_back"
   ],
   "note": "both directions; write back of read bytes is harmless even when it fails halfway"
  },
  {
   "property": "C08",
   "status": "proved",
   "theorems": [
    "PT.Props.C08_prefix",
    "PT.Props.C08_exceptions"
   ],
   "note": "every outcome of every write; the set of exceptions that can escape"
  },
  {
   "property": "C09",
   "status": "proved",
   "theorems": [
    "PT.Props.C09_prefix",
    "PT.Props.C09_effects",
    "PT.Props.C09_fallback",
    "PT.Props.C09_sticky"
   ],
   "note": "arbitrary /proc replies; fallback is sticky over every history of reads and writes"
  },
  {
   "property": "C10",
   "status": "partial",
   "theorems": [
    "PT.Props.C10_refuted",
    "PT.Props.C10_partial",
    "PT.Props.C10_exact"
   ],
   "note": "refuted: short /proc replies are returned as they are; proved for complete replies and for the fallback; C10_exact: a short result is returned only for a short nonzero count from the kernel"
  },
  {
   "property": "C11",
   "status": "partial",
   "theorems": [
    "PT.Props.C11_complete_partial",
    "PT.Props.C11_paged_partial",
    "PT.Props.C11_refuted_short_reply"
   ],
   "note": "proved for complete replies and for paged address spaces (chunk <= page); refuted for a kernel that cuts reads at arbitrary places"
  },
  {
   "property": "C12",
   "status": "partial",
   "theorems": [
    "PT.Props.C12_flag_partial",
    "PT.Props.C12_sound_partial",
    "PT.Props.C12_refuted"
   ],
   "note": "refuted (flag set although the whole string fits); the exact condition of the flag is proved"
  },
  {
   "property": "C13",
   "status": "proved",
   "theorems": [
    "PT.Props.C13_terminates",
    "PT.Props.C13_reads"
   ],
   "note": "iterations bounded by max/chunk+1; no request beyond the chunk of the first NUL (complete replies)"
  },
  {
   "property": "C14",
   "status": "proved",
   "theorems": [
    "PT.Props.C14_scan",
    "PT.Props.C14_unique",
    "PT.Props.C14_covers",
    "PT.Props.C14_sound"
   ],
   "note": "whole left-to-right scan of the mapping, chunking invisible; needs complete replies of the reads the search makes"
  },
  {
   "property": "C15",
   "status": "partial",
   "theorems": [
    "PT.Props.C15_nonempty_partial",
    "PT.Props.C15_refuted"
   ],
   "note": "refuted for the empty pattern (loops forever); every non-empty pattern terminates"
  },
  {
   "property": "C16",
   "status": "proved",
   "theorems": [
    "PT.Props.C16_read_after_write",
    "PT.Props.C16_failure_untouched",
    "PT.Props.C16_unknown",
    "PT.Props.C16_tables",
    "PT.Props.C16_succeeds"
   ],
   "note": "arbitrary tables plus whole-table facts for all seven register tables; failures leave registers untouched"
  },
  {
   "property": "C17",
   "status": "partial",
   "theorems": [
    "PT.Props.C17_succeeds",
    "PT.Props.C17_spec_complete",
    "PT.Props.C17_x86_64_partial",
    "PT.Props.C17_i386_partial",
    "PT.Props.C17_refuted"
   ],
   "note": "refuted for x86_64 eax/ebx/ecx/edx (upper half returned) and iopl (mask 2); proved for all other entries of both Intel tables"
  },
  {
   "property": "C18",
   "status": "partial",
   "theorems": [
    "PT.Props.C18_x86_64_partial",
    "PT.Props.C18_i386_partial",
    "PT.Props.C18_shifted_partial",
    "PT.Props.C18_refuted"
   ],
   "note": "refuted for shifted entries (mask not shifted: ah, flags) and eax (TypeError); proved for al..dx, cf; exact damage of shifted writes proved"
  },
  {
   "property": "C19",
   "status": "partial",
   "theorems": [
    "PT.Props.C19_install",
    "PT.Props.C19_find",
    "PT.Props.C19_restore_partial",
    "PT.Props.C19_one_byte",
    "PT.Props.C19_complete_replies",
    "PT.Props.C19_refuted"
   ],
   "note": "restores memory for one byte breakpoints under every kernel and for all sizes with complete replies; refuted for a short reply to a larger read"
  },
  {
   "property": "C20",
   "status": "partial",
   "theorems": [
    "PT.Props.C20_history_partial",
    "PT.Props.C20_listed_partial",
    "PT.Props.C20_refuted"
   ],
   "note": "induction over histories of creates/removes, including failing one byte operations; refuted for larger breakpoints that cover a listed one (only the start address is checked)"
  },
  {
   "property": "C21",
   "status": "proved",
   "theorems": [
    "PT.Props.C21_idempotent",
    "PT.Props.C21_dead",
    "PT.Props.C21_set_ip"
   ],
   "note": "idempotent even after a first call that raised; dead process untouched; set_ip"
  },
  {
   "property": "C22",
   "status": "proved",
   "theorems": [
    "PT.C22_exit",
    "PT.C22_killed",
    "PT.C22_stopped",
    "PT.C22_event",
    "PT.C22_every",
    "PT.C22_every_total",
    "PT.C22_message"
   ],
   "note": "all kernel-built statuses and the complete classification of every integer; message texts"
  },
  {
   "property": "C23",
   "status": "proved",
   "theorems": [
    "PT.C23_stopped",
    "PT.C23_killed",
    "PT.C23_exited",
    "PT.C23_code_text"
   ],
   "note": "exact text for stopped, killed (with/without core) and exited statuses"
  },
  {
   "property": "C24",
   "status": "partial",
   "theorems": [
    "PT.C24_killed_partial",
    "PT.C24_refuted"
   ],
   "note": "refuted for every exit code but 0, for core dumps and stops (si_status decoded as a wait status); true for killed children and exit code 0"
  },
  {
   "property": "C25",
   "status": "partial",
   "theorems": [
    "PT.C25_history_partial",
    "PT.C25_refuted"
   ],
   "note": "invariant over every history of library calls with every kernel; refuted when the user calls deleteProcess on an attached process and adds the pid again"
  },
  {
   "property": "C26",
   "status": "proved",
   "theorems": [
    "PT.C26_duplicate"
   ],
   "note": "every state, every registered pid"
  },
  {
   "property": "C27",
   "status": "partial",
   "theorems": [
    "PT.C27_refuted",
    "PT.C27_exact_partial"
   ],
   "note": "refuted (setoptions failure); exact characterisation of the cases where the pid stays registered"
  },
  {
   "property": "C28",
   "status": "partial",
   "theorems": [
    "PT.C28_order",
    "PT.C28_spare",
    "PT.C28_quit_partial",
    "PT.C28_registration_order",
    "PT.C28_created",
    "PT.C28_refuted"
   ],
   "note": "order and spared processes for every reachable state and kernel; registry refuted after a failed detach, true when every registered process is attached"
  },
  {
   "property": "C29",
   "status": "partial",
   "theorems": [
    "PT.C29_once_partial",
    "PT.C29_ended",
    "PT.C29_refuted",
    "PT.C29_told",
    "PT.C29_strace",
    "PT.C29_gdb"
   ],
   "note": "C29_once_partial: count bounded by one plus the number of attach() calls of the user (refuted only by such calls: C29_refuted). C29_ended: none after the object is known not to run. C29_told: none after the kernel told the end of the process to a wait, for all sequences of method calls; C29_strace, C29_gdb: the same for the programs."
  },
  {
   "property": "C30",
   "status": "proved",
   "theorems": [
    "PT.C30_history",
    "PT.C30_passed"
   ],
   "note": "every history, every kernel"
  },
  {
   "property": "C31",
   "status": "proved",
   "theorems": [
    "PT.C31_registered",
    "PT.C31_never_any",
    "PT.C31_events"
   ],
   "note": "every history; the wait for any child is excluded when pid 0 is never used"
  },
  {
   "property": "C32",
   "status": "partial",
   "theorems": [
    "PT.C32_filter",
    "PT.C32_raised",
    "PT.C32_surfaced_partial",
    "PT.C32_origin",
    "PT.C32_refuted"
   ],
   "note": "filtering and re-raising for every event; surfacing refuted for the first stop of a new process, true for every other status"
  },
  {
   "property": "C33",
   "status": "proved",
   "theorems": [
    "PT.C33_new_process"
   ],
   "note": "every kernel; the log shows the kernel's event, the reported pid and the options set last"
  },
  {
   "property": "C34",
   "status": "partial",
   "theorems": [
    "PT.C34_exit_partial",
    "PT.C34_refuted"
   ],
   "note": "refuted for a registered process whose detach failed before; true for attached processes"
  },
  {
   "property": "C35",
   "status": "partial",
   "theorems": [
    "PT.C35_refuted",
    "PT.C35_nonempty_partial"
   ],
   "note": "refuted for every kernel (IndexError); no IndexError otherwise"
  },
  {
   "property": "C36",
   "status": "partial",
   "theorems": [
    "PT.C36_gone_partial",
    "PT.C36_one_kill",
    "PT.C36_refuted"
   ],
   "note": "refuted after a failed detach; true for running attached processes; one SIGKILL if the kernel never reports a stop by SIGKILL"
  },
  {
   "property": "C37",
   "status": "proved",
   "theorems": [
    "PT.C37_accumulate",
    "PT.C37_reach"
   ],
   "note": "options are the fold of the calls made; every addProcess that returns sets them last"
  },
  {
   "property": "C38",
   "status": "proved",
   "theorems": [
    "PT.C38_new",
    "PT.C38_alternate",
    "PT.C38_start",
    "PT.C38_end"
   ],
   "note": "alternation over every history of library calls, events of other processes and failing reports; start and end reports exact"
  },
  {
   "property": "C39",
   "status": "partial",
   "theorems": [
    "PT.C39_run",
    "PT.C39_turn",
    "PT.C39_answer_partial",
    "PT.C39_execTrap",
    "PT.C39_refuted"
   ],
   "note": "all requests of every run are the answers to its events; refuted when the child of a fork ends before it is registered (the parent is never resumed); exact for events seen by waitpid"
  },
  {
   "property": "C40",
   "status": "partial",
   "theorems": [
    "PT.C40_code",
    "PT.C40_exited_partial",
    "PT.C40_killed_partial",
    "PT.C40_main",
    "PT.C40_refuted"
   ],
   "note": "refuted: a process killed without a signal stop (SIGKILL) gives the stale code 0; the exit code of every run is characterised exactly, right when the last process exits or dies of the last signal passed on"
  },
  {
   "property": "C41",
   "status": "proved",
   "theorems": [
    "PT.C41_shown",
    "PT.C41_default",
    "PT.C41_reported",
    "PT.C41_displayed",
    "PT.C41_unfinished"
   ],
   "note": "arbitrary tables, options and regular expression (as a predicate); selection, reporting and display"
  },
  {
   "property": "C42",
   "status": "partial",
   "theorems": [
    "PT.C42_refuted",
    "PT.C42_error_partial",
    "PT.C42_known",
    "PT.C42_exact"
   ],
   "note": "refuted: the last new name of the list is never validated; an unknown name followed by a further new name is an error, known names never are; C42_exact says exactly when the list is rejected"
  },
  {
   "property": "C43",
   "status": "partial",
   "theorems": [
    "PT.C43_passed",
    "PT.C43_cleared",
    "PT.C43_once",
    "PT.C43_kept",
    "PT.C43_stored",
    "PT.C43_refuted",
    "PT.C43_next_partial"
   ],
   "note": "every history of lines typed at the prompt, every kernel; cont sends to each process the given or kept signal and drops it only once accepted; never twice; other commands keep it. Refuted: the command signal drops a signal that arrives while it runs; proved for cont, and for signal when another process is stopped. Signals that arrive while interrupting or attaching are not stored by the code"
  },
  {
   "property": "C44",
   "status": "proved",
   "theorems": [
    "PT.C44_cycle",
    "PT.C44_repeat",
    "PT.C44_number",
    "PT.C44_registered"
   ],
   "note": "every reachable state; also that the current process is always registered"
  },
  {
   "property": "C45",
   "status": "partial",
   "theorems": [
    "PT.C45_dump",
    "PT.C45_short",
    "PT.C45_returns",
    "PT.C45_memory_partial",
    "PT.C45_refuted"
   ],
   "note": "any reader and expression parser: rows read once in order, shown byte by byte or inside a reported range of unreadable rows, limit announced exactly when cut. Refuted with readBytes: a short /proc/pid/mem reply leaves bytes of a row neither printed nor reported; proved for complete replies and for PTRACE_PEEKTEXT"
  },
  {
   "property": "C46",
   "status": "proved",
   "theorems": [
    "PT.C46_line",
    "PT.C46_unique",
    "PT.C46_blank",
    "PT.C46_other"
   ],
   "note": "for every command interpreter; split and strip have an independent specification"
  },
  {
   "property": "C47",
   "status": "proved",
   "theorems": [
    "PT.C47_arithmetic",
    "PT.C47_expression",
    "PT.C47_symbol",
    "PT.C47_letter"
   ],
   "note": "parseInteger and parseExpression, any text, registers and evaluator; eval is a parameter. Used of Python's text functions: newline is white space and lower() adds no final newline. An unknown register raises its own exception before the check"
  },
  {
   "property": "C48",
   "status": "proved",
   "theorems": [
    "PT.C48_expression",
    "PT.C48_pointer",
    "PT.C48_decimal",
    "PT.C48_hexadecimal",
    "PT.C48_register",
    "PT.C48_word"
   ],
   "note": "literals, registers, whole expressions (text evaluated, word reduction, pointers) and word range for every text. eval is a parameter of which only decimal numbers are assumed; decimal literals with leading zeros are not Python literals (SyntaxError, so ValueError)"
  },
  {
   "property": "C49",
   "status": "proved",
   "theorems": [
    "PT.C49_known_name",
    "PT.C49_unknown_name",
    "PT.C49_injective",
    "PT.C49_parse_name",
    "PT.C49_parse_short",
    "PT.C49_parse_other"
   ],
   "note": "every platform table with distinct attribute names; short names need that no signal is called SIG plus another signal's name (holds on Linux)"
  },
  {
   "property": "C50",
   "status": "partial",
   "theorems": [
    "PT.C50_fields",
    "PT.C50_program_partial",
    "PT.C50_refuted"
   ],
   "note": "every stat line, any program name; refuted for a carriage return in the name (text mode reads it as newline), otherwise exact. A name that is not UTF-8 raises UnicodeDecodeError (outside the statement, in the model)"
  },
  {
   "property": "C51",
   "status": "partial",
   "theorems": [
    "PT.C51_fields_partial",
    "PT.C51_error",
    "PT.C51_missing",
    "PT.C51_refuted"
   ],
   "note": "whole file, any number of lines, all field values; ProcessError exactly when some line does not match the expression; refuted for a path with a carriage return (the line is cut, ProcessError)"
  },
  {
   "property": "C52",
   "status": "partial",
   "theorems": [
    "PT.C52_list",
    "PT.C52_exact_partial",
    "PT.C52_empty",
    "PT.C52_refuted"
   ],
   "note": "every list of NUL-free strings; refuted for carriage returns, exact otherwise"
  },
  {
   "property": "C53",
   "status": "partial",
   "theorems": [
    "PT.C53_budget_partial",
    "PT.C53_refuted"
   ],
   "note": "every environment whose variables have an equals sign: subsequence, budget, count, everything shown when it fits, and the text; refuted without an equals sign (TypeError)"
  },
  {
   "property": "C54",
   "status": "partial",
   "theorems": [
    "PT.C54_search_partial",
    "PT.C54_refuted"
   ],
   "note": "snapshot of /proc; every listing and process table whose files can be decoded and have no carriage return; refuted: an unrelated process whose command line is not UTF-8 ends the search with UnicodeDecodeError"
  },
  {
   "property": "C55",
   "status": "proved",
   "theorems": [
    "PT.C55_list",
    "PT.C55_sum",
    "PT.C55_injective",
    "PT.C55_text"
   ],
   "note": "every value and table (disjoint masks for the list, single bits for the sum, distinct non-numeric names for injectivity); the text of formatBits is injective for every table"
  },
  {
   "property": "C56",
   "status": "partial",
   "theorems": [
    "PT.C56_determines",
    "PT.C56_prot",
    "PT.C56_access",
    "PT.C56_none",
    "PT.C56_clone",
    "PT.C56_mode",
    "PT.C56_open_partial",
    "PT.C56_refuted"
   ],
   "note": "texts determine the value for all five formatters; names shown and completeness against the constants of the kernel (x86); open: O_TMPFILE and O_SYNC are shown when only a part of their bits is set, and on ARM four names are exchanged (refuted), otherwise partial; the text of open flags with bit 3 = both access bits shows O_WRONLY|O_RDWR"
  },
  {
   "property": "C57",
   "status": "partial",
   "theorems": [
    "PT.C57_fds_partial",
    "PT.C57_signals_partial",
    "PT.C57_refuted"
   ],
   "note": "every memory content; little endian and nfds up to 1024 (partial); refuted for descriptors from 1024 on and for big endian machines"
  },
  {
   "property": "C58",
   "status": "proved",
   "theorems": [
    "PT.C58_result",
    "PT.C58_injective"
   ],
   "note": "every register value, errno table and message; injective for values of a register"
  },
  {
   "property": "C59",
   "status": "partial",
   "theorems": [
    "PT.C59_ctypes",
    "PT.C59_cptrace_partial",
    "PT.C59_cptrace_refuted",
    "PT.C59_poke_refuted",
    "PT.C59_stale_refuted",
    "PT.C59_peek",
    "PT.C59_poke"
   ],
   "note": "every command, argument, earlier state and kernel reply; ctypes with glibc in full; the C extension without error numbers and for signed word arguments (partial); refuted: the C extension reports error 0 and overflows for words from 2^63 on, ctypes on a libc that does not reset errno"
  },
  {
   "property": "C60",
   "status": "proved",
   "theorems": [
    "PT.C60_minmax",
    "PT.C60_level",
    "PT.C60_named"
   ],
   "note": "every integer"
  },
  {
   "property": "C61",
   "status": "partial",
   "theorems": [
    "PT.C61_unchanged",
    "PT.C61_path",
    "PT.C61_relative_partial",
    "PT.C61_refuted",
    "PT.C61_root"
   ],
   "note": "every path, PATH value and set of executable files; relative paths name the same file when no symbolic link is on the way; refuted for a link before .."
  },
  {
   "property": "C62",
   "status": "partial",
   "theorems": [
    "PT.C62_exact",
    "PT.C62_partial",
    "PT.C62_refuted"
   ],
   "note": "every descriptor table below MAXFD with open standard descriptors and open pass_fds (partial); refuted for descriptors from MAXFD on and for pass_fds naming the closed number that the error pipe gets; C62_exact gives the table after the closing loop without a bound on the descriptors"
  },
  {
   "property": "C63",
   "status": "partial",
   "theorems": [
    "PT.C63_partial",
    "PT.C63_sound",
    "PT.C63_refuted"
   ],
   "note": "every failure of open, redirection and exec (partial); C63_sound for every state; refuted: PTRACE_TRACEME or set_inheritable failing in the child is not reported, and the pipe on number 2 is overwritten by the redirection"
  },
  {
   "property": "C64",
   "status": "proved",
   "theorems": [
    "PT.C64_retry",
    "PT.C64_never",
    "PT.C64_helpers"
   ],
   "note": "every call and any number of interruptions"
  },
  {
   "property": "C65",
   "status": "partial",
   "theorems": [
    "PT.C65_partial",
    "PT.C65_lost",
    "PT.C65_bounded",
    "PT.C65_refuted"
   ],
   "note": "every stack content where the frames within the depth are readable (partial), bounds for every stack; refuted: one unreadable return address or frame loses the whole backtrace; C65_lost: the backtrace is lost exactly when a frame within the depth is torn"
  },
  {
   "property": "C66",
   "status": "proved",
   "theorems": [
    "PT.C66_unique",
    "PT.C66_arguments",
    "PT.C66_unknown",
    "PT.C66_preformat",
    "PT.C66_alias",
    "PT.C66_base",
    "PT.C66_socketcall",
    "PT.C66_sockets"
   ],
   "note": "every entry of the seven tables and of the prototypes with aliases, by kernel evaluation of complete tables and lemmas lifting the checks"
  },
  {
   "property": "C67",
   "status": "proved",
   "theorems": [
    "PT.C67_call"
   ],
   "note": "every argument list, types and names on or off"
  },
  {
   "property": "C68",
   "status": "partial",
   "theorems": [
    "PT.C68_array_partial",
    "PT.C68_terminates",
    "PT.C68_refuted"
   ],
   "note": "every pointer array, any tracer state; refuted for exactly max strings (shown as 'more than max') and for max = 0 (one string shown); terminates for every memory"
  },
  {
   "property": "C69",
   "status": "partial",
   "theorems": [
    "PT.C69_instr",
    "PT.C69_stack_partial",
    "PT.C69_access_partial",
    "PT.C69_again",
    "PT.C69_refuted",
    "PT.C69_edge_refuted",
    "PT.C69_pair_refuted"
   ],
   "note": "every state of a process that answers with values or PtraceError; refuted for instructions without operands (IndexError while reporting), a stack pointer at the end of the stack, and MOVS without siginfo (TypeError)"
  },
  {
   "property": "C70",
   "status": "proved",
   "theorems": [
    "PT.C70_blocking",
    "PT.C70_polled"
   ],
   "note": "every reachable state and kernel; None means that each registered pid was polled once, in order"
  },
  {
   "property": "C71",
   "status": "partial",
   "theorems": [
    "PT.C71_x86_64_partial",
    "PT.C71_refuted",
    "PT.C71_aarch64",
    "PT.C71_riscv64",
    "PT.C71_riscv32",
    "PT.C71_i386_partial",
    "PT.C71_i386_refuted",
    "PT.C71_known_x86_64",
    "PT.C71_known_aarch64",
    "PT.C71_known_riscv64",
    "PT.C71_shown"
   ],
   "note": "aarch64, riscv32, riscv64 agree completely with linux-libc-dev 6.8; x86_64 refuted at 283 (timerfd for timerfd_create, which loses the prototype); i386 uses names of kernel functions for 54 numbers; PowerPC is not compared, its headers are not available here"
  },
  {
   "property": "C72",
   "status": "proved",
   "theorems": [
    "PT.C72_convention",
    "PT.C72_exist"
   ],
   "note": "every CPU, against the conventions of syscall(2)"
  },
  {
   "property": "C73",
   "status": "partial",
   "theorems": [
    "PT.C73_partial",
    "PT.C73_unknown",
    "PT.C73_refuted",
    "PT.C73_shown",
    "PT.C73_shown_unknown"
   ],
   "note": "the first 17 sub-calls (partial); refuted: accept4, recvmmsg, sendmmsg and any unknown sub-call raise KeyError (C73_unknown); C73_shown, C73_shown_unknown: the text of the array when the call is not replaced"
  },
  {
   "property": "C74",
   "status": "partial",
   "theorems": [
    "PT.C74_pointer_partial",
    "PT.C74_preformat",
    "PT.C74_prepared",
    "PT.C74_plain",
    "PT.C74_refuted"
   ],
   "note": "pointers and untyped arguments (partial), lost arguments, and plain values; refuted for arrays like int[2] of pipe when calls are also shown on entry"
  },
  {
   "property": "C75",
   "status": "partial",
   "theorems": [
    "PT.C75_write",
    "PT.C75_operand",
    "PT.C75_source",
    "PT.C75_string",
    "PT.C75_refuted",
    "PT.C75_scas_refuted",
    "PT.C75_size_refuted"
   ],
   "note": "moves into memory, other operators with a memory operand first or second, and string copies, for any operand text; refuted for TEST (said to write), MOVS with explicit operands (the source said to be written), SCAS (no direction), QWORD (no direction, no size) and DQWORD (8 bytes instead of 16)"
  },
  {
   "property": "C76",
   "status": "partial",
   "theorems": [
    "PT.C76_partial",
    "PT.C76_unmapped",
    "PT.C76_refuted"
   ],
   "note": "any address, size and mappings not smaller than the access (partial); 'not mapped' is right for the first and last byte; refuted without a size: the byte after the end of a mapping is said to be in it"
  },
  {
   "property": "C77",
   "status": "partial",
   "theorems": [
    "PT.C77_partial",
    "PT.C77_refuted"
   ],
   "note": "sound for every operand text; complete for the registers with three letters, segments and low bytes (partial); refuted for R8-R15"
  },
  {
   "property": "C78",
   "status": "partial",
   "theorems": [
    "PT.C78_partial",
    "PT.C78_refuted",
    "PT.C78_others",
    "PT.C78_dispatch"
   ],
   "note": "divisions and only they are explained; other signals unchanged; refuted: a quotient overflow is reported as division by zero"
  },
  {
   "property": "C79",
   "status": "partial",
   "theorems": [
    "PT.C79_partial",
    "PT.C79_size_refuted",
    "PT.C79_long_refuted"
   ],
   "note": "every history of breakpoints on whole instructions, with complete reads (partial); refuted for a breakpoint smaller than its instruction and for instructions longer than MAX_INSTR_SIZE = 11"
  },
  {
   "property": "C80",
   "status": "partial",
   "theorems": [
    "PT.C80_consecutive",
    "PT.C80_exact_partial",
    "PT.C80_range",
    "PT.C80_refuted",
    "PT.C80_wrapper_refuted",
    "PT.C80_none",
    "PT.C80_where_partial",
    "PT.C80_bytes_partial"
   ],
   "note": "consecutive with the bytes of memory for every kernel reply; exact for instructions up to MAX_INSTR_SIZE with complete reads (partial); refuted at the end of a given range, and with the libdistorm64 wrapper on Python 3 (TypeError)"
  },
  {
   "property": "C81",
   "status": "partial",
   "theorems": [
    "PT.C81_break_partial",
    "PT.C81_covered",
    "PT.C81_delete_none",
    "PT.C81_delete_false",
    "PT.C81_delete_regs",
    "PT.C81_delete_partial",
    "PT.C81_refuted"
   ],
   "note": "exact for instructions up to MAX_INSTR_SIZE with complete reads (partial); refuted: after a delete whose write failed, the next delete reports success and does nothing"
  },
  {
   "property": "C82",
   "status": "partial",
   "theorems": [
    "PT.C82_partial",
    "PT.C82_other_trap",
    "PT.C82_middle_refuted",
    "PT.C82_sent_refuted",
    "PT.C82_process_refuted"
   ],
   "note": "for a trap at the first byte of a breakpoint of the current process (partial); refuted for traps in the middle, for SIGTRAP sent by others, and for other processes than the current one"
  },
  {
   "property": "C83",
   "status": "partial",
   "theorems": [
    "PT.C83_partial",
    "PT.C83_target_partial",
    "PT.C83_outcome",
    "PT.C83_exception",
    "PT.C83_refuted",
    "PT.C83_cont_refuted"
   ],
   "note": "memory and list restored after every run, also after exceptions (partial); refuted: the instruction pointer is moved when the process stopped elsewhere; the breakpoint stays when cont fails"
  },
  {
   "property": "C84",
   "status": "partial",
   "theorems": [
    "PT.C84_text",
    "PT.C84_injective",
    "PT.C84_file_partial",
    "PT.C84_null",
    "PT.C84_unreadable",
    "PT.C84_paged_partial",
    "PT.C84_whole_partial",
    "PT.C84_short_refuted"
   ],
   "note": "text and bytes determine each other (proved); the bytes against memory as C11/C12, for complete replies of the kernel or a paged address space; for any kernel a text without dots is the whole string (C84_whole_partial); refuted: a kernel that cuts reads gives a text that is not the beginning of the string"
  },
  {
   "property": "C85",
   "status": "partial",
   "theorems": [
    "PT.C85_partial",
    "PT.C85_refuted",
    "PT.C85_other"
   ],
   "note": "when the read is complete (partial); refuted: a short read is shown without dots"
  },
  {
   "property": "C86",
   "status": "partial",
   "theorems": [
    "PT.C86_layout",
    "PT.C86_partial",
    "PT.C86_rlimit_partial",
    "PT.C86_rlimit_refuted",
    "PT.C86_user_desc_refuted",
    "PT.C86_short_refuted",
    "PT.C86_unreadable",
    "PT.C86_distinct_partial"
   ],
   "note": "timeval, timespec, pollfd, new_utsname for complete reads, rlimit below half of the range (partial); refuted: short reads show memory of the tracer, RLIM_INFINITY is shown as -1, user_desc has another layout on 64 bits; C86_distinct_partial: equal texts of times and pollfd come from equal bytes; C86_layout: offsets follow the C rule for every structure"
  },
  {
   "property": "C87",
   "status": "partial",
   "theorems": [
    "PT.C87_partial",
    "PT.C87_abstract_refuted",
    "PT.C87_length_refuted",
    "PT.C87_distinct_partial"
   ],
   "note": "little endian, when the whole structure can be read (partial); refuted: abstract sockets look alike, bytes behind the length are shown; C87_distinct_partial: equal texts come from equal families and fields"
  },
  {
   "property": "C88",
   "status": "partial",
   "theorems": [
    "PT.C88_partial",
    "PT.C88_named",
    "PT.C88_options_partial",
    "PT.C88_fcntl_refuted",
    "PT.C88_rlimit_refuted",
    "PT.C88_options_refuted",
    "PT.C88_socket_type",
    "PT.C88_nonblock_refuted",
    "PT.C88_dirfd",
    "PT.C88_callbacks"
   ],
   "note": "all entries of the tables except fcntl from 5 on, resource 15 and socket options, which are right for one level (partial); refuted for these; SOCK_NONBLOCK hides the type"
  },
  {
   "property": "C89",
   "status": "partial",
   "theorems": [
    "PT.C89_total",
    "PT.C89_error",
    "PT.C89_unknown",
    "PT.C89_partial",
    "PT.C89_size_refuted",
    "PT.C89_long_refuted",
    "PT.C89_uid_refuted",
    "PT.C89_unsigned_refuted",
    "PT.C89_null",
    "PT.C89_pointer_partial",
    "PT.C89_pair_partial"
   ],
   "note": "every argument has a text (proved); integers for signed types of 32 bits, unsigned types without higher bits, others below 2^31 (partial); refuted for size_t, long, uid_t and unsigned int otherwise"
  },
  {
   "property": "C90",
   "status": "proved",
   "theorems": [
    "PT.C90_getregs",
    "PT.C90_setregs",
    "PT.C90_setattr"
   ],
   "note": "eight instruction sets; the kernel's layout and its copying are hypotheses, met by a concrete machine for each"
  },
  {
   "property": "C91",
   "status": "partial",
   "theorems": [
    "PT.C91_room",
    "PT.C91_partial",
    "PT.C91_uid_refuted",
    "PT.C91_times_refuted"
   ],
   "note": "number, code, address, process and status; times on 32 bits (partial); refuted: users from 65536 on, times on 64 bits"
  },
  {
   "property": "C92",
   "status": "partial",
   "theorems": [
    "PT.C92_partial",
    "PT.C92_big_refuted",
    "PT.C92_space_refuted"
   ],
   "note": "little endian or 32 bits, messages below 2^31 (partial); refuted: 64-bit big endian reads the upper half, the kernel writes 8 bytes to an object of 4"
  },
  {
   "property": "C93",
   "status": "proved",
   "theorems": [
    "PT.C93_requests",
    "PT.C93_poke",
    "PT.C93_peek"
   ],
   "note": "peeks with a C library that clears errno or with the C extension, see C59"
  },
  {
   "property": "C94",
   "status": "partial",
   "theorems": [
    "PT.C94_partial",
    "PT.C94_refuted"
   ],
   "note": "Intel CPUs (partial); refuted on ARM: the kernel writes 116 bytes to a structure of 108"
  },
  {
   "property": "C95",
   "status": "partial",
   "theorems": [
    "PT.C95_reached",
    "PT.C95_missing",
    "PT.C95_distinct",
    "PT.C95_help",
    "PT.C95_partial",
    "PT.C95_alone_partial",
    "PT.C95_refuted",
    "PT.C95_quit_refuted"
   ],
   "note": "every use of the manual is run as such; refuted: switchboard, signalsx and `breakpoints 5` run commands, quit is unknown after a semicolon; partial for everything else"
  },
  {
   "property": "C96",
   "status": "partial",
   "theorems": [
    "PT.C96_print",
    "PT.C96_invalid",
    "PT.C96_zero_refuted"
   ],
   "note": "for every value and list of mappings; refuted: print 1/0 ends gdb"
  },
  {
   "property": "C97",
   "status": "partial",
   "theorems": [
    "PT.C97_set",
    "PT.C97_untouched",
    "PT.C97_malformed",
    "PT.C97_refuted",
    "PT.C97_unknown"
   ],
   "note": "full registers; nothing changes in any other case; refuted: set $eax=1 on x86_64 ends gdb, set $ah=0 does not clear the bits"
  },
  {
   "property": "C98",
   "status": "partial",
   "theorems": [
    "PT.C98_follow",
    "PT.C98_follow_fails",
    "PT.C98_xray",
    "PT.C98_covered",
    "PT.C98_sound",
    "PT.C98_pointers_refuted",
    "PT.C98_unreadable_refuted",
    "PT.C98_empty_refuted",
    "PT.C98_semicolon_refuted"
   ],
   "note": "complete when all mappings can be read and no term is empty, true lines for any kernel; refuted: overlapping pointers are missed, one unreadable mapping stops the report, an empty term never ends, semicolons cut terms"
  },
  {
   "property": "C99",
   "status": "proved",
   "theorems": [
    "PT.C99_where",
    "PT.C99_where_invalid",
    "PT.C99_proclist",
    "PT.C99_breakpoints",
    "PT.C99_signals"
   ],
   "note": "for all texts and states; dumpCode itself is C79"
  },
  {
   "property": "C100",
   "status": "partial",
   "theorems": [
    "PT.C100_regs",
    "PT.C100_regs_fails",
    "PT.C100_digits_refuted",
    "PT.C100_stack",
    "PT.C100_maps",
    "PT.C100_backtrace",
    "PT.C100_instr",
    "PT.C100_gcore_refuted"
   ],
   "note": "for every process; refuted: digits do not follow the width of a register of 16 bits, gcore never writes a dump"
  },
  {
   "property": "C101",
   "status": "partial",
   "theorems": [
    "PT.C101_state",
    "PT.C101_ids",
    "PT.C101_info_partial",
    "PT.C101_refuted",
    "PT.C101_state_refuted"
   ],
   "note": "variables with an equals sign, no carriage returns (partial); refuted: a variable without an equals sign ends the report; a process stopped by a signal is called traced"
  },
  {
   "property": "C102",
   "status": "partial",
   "theorems": [
    "PT.C102_statm",
    "PT.C102_link",
    "PT.C102_uptime",
    "PT.C102_boot",
    "PT.C102_boot_missing",
    "PT.C102_boot_refuted",
    "PT.C102_timestamp_partial",
    "PT.C102_timestamp_refuted",
    "PT.C102_traced_partial",
    "PT.C102_traced_refuted"
   ],
   "note": "statm, links, uptime for all files; the boot date with the clock offset of 1970 (refuted elsewhere); timestamps in range (partial), refuted outside; isTraced looks at the letter T (partial), refuted for traced processes"
  },
  {
   "property": "C103",
   "status": "partial",
   "theorems": [
    "PT.C103_backtrace",
    "PT.C103_backtrace_fails",
    "PT.C103_none_refuted",
    "PT.C103_error",
    "PT.C103_reraise_partial",
    "PT.C103_reraise_refuted",
    "PT.C103_level_refuted",
    "PT.C103_options",
    "PT.C103_quiet"
   ],
   "note": "levels DEBUG to ERROR; refuted: without an exception no line says that there is no backtrace, derived classes are not raised again (partial), CRITICAL becomes ERROR"
  },
  {
   "property": "C104",
   "status": "partial",
   "theorems": [
    "PT.C104_echo",
    "PT.C104_no_terminal",
    "PT.C104_restore",
    "PT.C104_width_partial",
    "PT.C104_width_refuted",
    "PT.C104_cloexec",
    "PT.C104_options",
    "PT.C104_no_events",
    "PT.C104_program",
    "PT.C104_profiler_partial",
    "PT.C104_profiler_refuted"
   ],
   "note": "fewer than 32768 rows and columns (partial), refuted beyond; functions that return (partial), refuted: the exception of a profiled function is replaced"
  },
  {
   "property": "C105",
   "status": "partial",
   "theorems": [
    "PT.C105_unique",
    "PT.C105_value",
    "PT.C105_error",
    "PT.C105_pointer",
    "PT.C105_zeros_refuted",
    "PT.C105_expression"
   ],
   "note": "eval is assumed to compute arithmetic by Python's grammar (a parser that does is built to show the assumption can be met); a part that is no integer (2**-1) is left out; refuted: decimal numbers with a superfluous leading zero are refused"
  },
  {
   "property": "C106",
   "status": "partial",
   "theorems": [
    "PT.C106_report",
    "PT.C106_silent",
    "PT.C106_access",
    "PT.C106_several",
    "PT.C106_instruction",
    "PT.C106_overflow_refuted",
    "PT.C106_lossless",
    "PT.C106_name"
   ],
   "note": "sizes of zero are left out of the message and so out of the claim (partial); refuted: the message about a stack overflow says that the stack pointer is in the stack, and it never is"
  },
  {
   "property": "C107",
   "status": "partial",
   "theorems": [
    "PT.C107_same",
    "PT.C107_line",
    "PT.C107_turn",
    "PT.C107_run",
    "PT.C107_filter_partial",
    "PT.C107_quiet_partial",
    "PT.C107_list",
    "PT.C107_vars_partial",
    "PT.C107_vars_refuted",
    "PT.C107_fork"
   ],
   "note": "the texts of calls and results (C84 to C92) and of signals (C106) are parameters; the filter is proved for runs in which processes are registered by the events that report them (partial); the line about the new program is right for 40 variables (partial), refuted for any other number"
  },
  {
   "property": "C108",
   "status": "partial",
   "theorems": [
    "PT.C108_unique",
    "PT.C108_stream",
    "PT.C108_contiguous",
    "PT.C108_later_partial",
    "PT.C108_later_refuted",
    "PT.C108_kind",
    "PT.C108_errors",
    "PT.C108_complains",
    "PT.C108_kept"
   ],
   "note": "Partial: what was yielded are views of a reused buffer. Used at once they are right for every decoder (C108_stream); used later only if all came in one batch (C108_later_partial); C108_later_refuted: with more instructions than slots the first one yielded shows an instruction of another address at the end. disassemble and disassembleOne of the project use the instruction at once. The C function is a parameter."
  },
  {
   "property": "C109",
   "status": "partial",
   "theorems": [
    "PT.C109_detach",
    "PT.C109_clean_partial",
    "PT.C109_detach_refuted",
    "PT.C109_final",
    "PT.C109_remove_partial",
    "PT.C109_remove_refuted"
   ],
   "note": "Partial: true if every breakpoint was removed before (C109_clean_partial), and of removeBreakpoint if nothing else refers to the breakpoint (C109_remove_partial). Refuted: detach leaves every listed breakpoint in the code (C109_detach_refuted), the finalisers never remove one because their weak reference is dead (C109_final), removeBreakpoint leaves it if a variable refers to the object (C109_remove_refuted)."
  },
  {
   "property": "C110",
   "status": "partial",
   "theorems": [
    "PT.C110_fork_partial",
    "PT.C110_fork_refuted",
    "PT.C110_exec_partial",
    "PT.C110_exec_refuted"
   ],
   "note": "Partial: true without listed breakpoints (C110_fork_partial, C110_exec_partial). Refuted: the child has every trap of its parent and its object knows none (C110_fork_refuted); removing a breakpoint after execve writes bytes of the old program over the new one (C110_exec_refuted)."
  },
  {
   "property": "C111",
   "status": "partial",
   "theorems": [
    "PT.C111_one",
    "PT.C111_groups",
    "PT.C111_errors",
    "PT.C111_word",
    "PT.C111_names_partial",
    "PT.C111_sound",
    "PT.C111_names_refuted",
    "PT.C111_unknown",
    "PT.C111_os"
   ],
   "note": "Partial: refuted for i486, i586 and aarch64_be, which are not recognised (C111_names_refuted); every other name Linux prints is (C111_names_partial). C111_one, C111_errors, C111_word, C111_sound, C111_unknown and C111_os hold in full."
  },
  {
   "property": "C112",
   "status": "partial",
   "theorems": [
    "PT.C112_table",
    "PT.C112_pointers_partial",
    "PT.C112_read_partial",
    "PT.C112_arm_refuted",
    "PT.C112_arm_link",
    "PT.C112_mixed_refuted"
   ],
   "note": "Partial: proved for native processes except the stack pointer of ARM (C112_table, C112_pointers_partial, C112_read_partial). Refuted: on ARM the stack pointer is taken from r14, the link register (C112_arm_refuted, C112_arm_link); a 32-bit Python on an x86-64 kernel has the structure of i386 with the names of x86-64 and every access to the three pointers raises PtraceError (C112_mixed_refuted)."
  },
  {
   "property": "C113",
   "status": "partial",
   "theorems": [
    "PT.C113_order",
    "PT.C113_prompt",
    "PT.C113_fair_partial",
    "PT.C113_refuted"
   ],
   "note": "Partial: the order and the pauses hold (C113_order, C113_prompt); a process is reported when no earlier one has anything to report (C113_fair_partial). Refuted as fairness: every wait asks from the first process again, so while the first one keeps stopping the second is never asked for, however many events are served (C113_refuted)."
  },
  {
   "property": "C114",
   "status": "partial",
   "theorems": [
    "PT.C114_partial",
    "PT.C114_reached_partial",
    "PT.C114_reads_refuted",
    "PT.C114_stepi_refuted",
    "PT.C114_step_refuted"
   ],
   "note": "simulation between the debugged process and the free program; partial: the program must not use bytes of listed breakpoints (C114_reads_refuted), stepi on a breakpoint executes the trap and leaves the process behind it (C114_stepi_refuted), step on a breakpoint skips the instruction (C114_step_refuted); traps of one byte, reads complete, breakpoints do not overlap"
  },
  {
   "property": "C115",
   "status": "partial",
   "theorems": [
    "PT.C115_partial",
    "PT.C115_default_refuted",
    "PT.C115_died_refuted",
    "PT.C115_status_refuted"
   ],
   "note": "Proved: number and kind of the resumptions, the pairing of reads and single steps, and all lines. Refuted: without -n (the default) the comparison with None raises TypeError before anything is traced; 'died with signal' is printed for a signal the process has not even received and may survive; the exit status is 0 whatever the program returned. The number N counts stops, two per system call (C38)."
  },
  {
   "property": "C116",
   "status": "partial",
   "theorems": [
    "PT.C116_read",
    "PT.C116_error",
    "PT.C116_read_partial",
    "PT.C116_write",
    "PT.C116_write_partial",
    "PT.C116_roundtrip_partial",
    "PT.C116_string_partial",
    "PT.C116_read_refuted",
    "PT.C116_write_refuted",
    "PT.C116_string_refuted",
    "PT.C116_wrap_refuted"
   ],
   "note": "C116_read, C116_write and C116_error say exactly what happens for every answer. Refuted in full: the length the kernel stores in the descriptor is ignored, so after a short transfer the rest of a read is zeros, the rest of a write is missing, and a string is reported as complete that is not; an address above the address space is reduced modulo the pointer size instead of refused. Partial: kernels that move whole blocks, addresses that fit a pointer."
  },
  {
   "property": "C117",
   "status": "partial",
   "theorems": [
    "PT.C117_event",
    "PT.C117_gone",
    "PT.C117_twice_partial",
    "PT.C117_poll_refuted",
    "PT.C117_lost_refuted"
   ],
   "note": "C117_event and C117_gone hold for every kernel. Refuted: a non-blocking wait makes a blocking one when the process exited; if the second wait is interrupted (Ctrl-C) the exit code is lost and the process is reported later as gone without a code. Partial: exactly two waits when the second is answered with an end or ECHILD."
  },
  {
   "property": "C118",
   "status": "partial",
   "theorems": [
    "PT.C118_partial",
    "PT.C118_refuted"
   ],
   "note": "every header (partial) where no name of a parameter ends in long, int or size_t and unnamed types end in one of these or in *; refuted otherwise: a name like hint becomes part of the type, an unnamed type becomes the name, a blank before a comma raises AttributeError"
  },
  {
   "property": "C119",
   "status": "partial",
   "theorems": [
    "PT.C119_requests",
    "PT.C119_getregs_partial",
    "PT.C119_openbsd64_refuted",
    "PT.C119_syscall_refuted",
    "PT.C119_syscall",
    "PT.C119_powerpc_refuted"
   ],
   "note": "Requests: proved for both systems. Registers: proved for FreeBSD amd64/i386 and OpenBSD/i386 (partial). Refuted: on OpenBSD/amd64 the structure has 64 of the kernel's 192 bytes, so registers are written behind the object and there is no rip; OpenBSD has no PTRACE_SYSCALL, so syscall() raises without a request; on FreeBSD/PowerPC getregs joins bytes with a text and never returns."
  },
  {
   "property": "C120",
   "status": "partial",
   "theorems": [
    "PT.C120_names",
    "PT.C120_name",
    "PT.C120_openbsd_refuted",
    "PT.C120_arguments_partial",
    "PT.C120_unreadable_refuted",
    "PT.C120_lseek_refuted",
    "PT.C120_result_partial",
    "PT.C120_error_refuted"
   ],
   "note": "Partial: names on FreeBSD, arguments when six words can be read (calls that are not formatted early), results when the carry flag is clear. Refuted: OpenBSD has no names; the carry flag is ignored, so a failed call is shown as one that returned the error number; six stack words are read even for a call without arguments, and a failure to read ends the trace; 64-bit arguments on i386 shift the following ones (lseek shows the upper half of the offset as whence)."
  },
  {
   "property": "C121",
   "status": "partial",
   "theorems": [
    "PT.C121_read_partial",
    "PT.C121_write_partial",
    "PT.C121_stale_refuted",
    "PT.C121_cptrace_refuted",
    "PT.C121_wrap_refuted"
   ],
   "note": "Partial: ctypes with a C library that resets errno after a peek (glibc), or while no request has failed. The word loops over the binding are shown to simulate those of C05-C08 (refinement), so the theorems carry over. Refuted: with musl any memory that contains an aligned word of ones is unreadable after one failed request; with the C extension a word with its highest bit set cannot be written (OverflowError, no request); an address beyond the last word is cut by ctypes and another word is read."
  },
  {
   "property": "C122",
   "status": "partial",
   "theorems": [
    "PT.C122_pass_partial",
    "PT.C122_trap_refuted",
    "PT.C122_first_refuted"
   ],
   "note": "C122_pass_partial: stops other than SIGTRAP, the system call mark (SIGTRAP|0x80) and the first stop of a new process are passed on, one to one and in order. The full statement is false: C122_trap_refuted (a real SIGTRAP is taken away from the process), C122_first_refuted (a signal that arrives while attaching is lost and the SIGSTOP of attaching is delivered instead)."
  },
  {
   "property": "C123",
   "status": "partial",
   "theorems": [
    "PT.C123_file_partial",
    "PT.C123_socket_partial",
    "PT.C123_socket_i386",
    "PT.C123_both",
    "PT.C123_file_refuted",
    "PT.C123_socket_refuted",
    "PT.C123_subcall_refuted",
    "PT.C123_names",
    "PT.C123_nameless_refuted"
   ],
   "note": "Partial: the classes are those of the manual pages. `--filename` selects by names of arguments and misses 23 calls whose argument is named otherwise or that have no prototype (mount, swapon, umount2, openat2, ...; C123_file_partial gives the exact list, C123_file_refuted two of them). `--socket` misses accept4, sendmmsg, recvmmsg and, on PowerPC, send, recv and socketcall (C123_socket_partial, C123_socket_refuted); on i386 it is exact (C123_socket_i386). C123_subcall_refuted: on i386 a selection by the name of a sub-call of socketcall shows nothing, because the filter sees the name before the replacement. C123_names: names of the table of the CPU select exactly those calls; C123_nameless_refuted: seven calls of 32 bit PowerPC have the empty name and no text selects them."
  },
  {
   "property": "C124",
   "status": "partial",
   "theorems": [
    "PT.C124_look",
    "PT.C124_set",
    "PT.C124_break",
    "PT.C124_session_look",
    "PT.C124_session_registers",
    "PT.C124_session_code",
    "PT.C124_session_partial",
    "PT.C124_overlap_refuted"
   ],
   "note": "Partial: the claim about trap bytes is for gdb.py without a disassembler and not on PowerPC (breakpoints of one byte); with a disassembler breakpoints may overlap and a trap byte is left behind (C124_overlap_refuted). The other claims hold without restriction. An exception that ends gdb.py ends the session."
  },
  {
   "property": "C125",
   "status": "partial",
   "theorems": [
    "PT.C125_run_partial",
    "PT.C125_execve_refuted"
   ],
   "note": "C125_run_partial: the whole session of strace.py for every program of one process, by induction on the program. Missing: a failed execve without events, for which C125_execve_refuted shows that strace.py swallows the start of the next call and exchanges starts and ends from then on; programs with several processes; a signal with number 133; kernels that refuse a request."
  },
  {
   "property": "C126",
   "status": "partial",
   "theorems": [
    "PT.C126_quit_partial",
    "PT.C126_event_refuted",
    "PT.C126_gone_refuted",
    "PT.C126_interrupt_refuted"
   ],
   "note": "Proved with the exact list of requests for every registry and every list of pending signals. Three refutations: an event (exec, fork) on its way while the process is killed leaves quit as an exception, so does Control-C while quit waits, and the OSError of os.kill for a process that is gone is not caught (only PtraceError is); in all cases processes stay registered and those attached before are never released."
  },
  {
   "property": "C127",
   "status": "partial",
   "theorems": [
    "PT.C127_session_partial",
    "PT.C127_signal_refuted",
    "PT.C127_arguments"
   ],
   "note": "The run is proved with its exact list of requests. The signal that stopped an attached process is lost when it is detached (refuted with a witness): detach passes no signal."
  },
  {
   "property": "C128",
   "status": "partial",
   "theorems": [
    "PT.C128_tree_partial",
    "PT.C128_code_refuted",
    "PT.C128_killed_refuted"
   ],
   "note": "For every tree whose stops are those of ptrace(2), every interleaving and every option, the acts for each process are exactly those of its own stops, independent of the others. The exit code is that of the process that ends last (refuted with one tree and two schedules), and a process that is killed before its first stop leaves its parent stopped for ever (refuted with a witness)."
  },
  {
   "property": "C129",
   "status": "partial",
   "theorems": [
    "PT.C129_run_partial",
    "PT.C129_prompt_partial",
    "PT.C129_delivery_partial",
    "PT.C129_exec_refuted",
    "PT.C129_forgotten_refuted"
   ],
   "note": "Partial: the statement is false with events and with several processes. C129_exec_refuted: with --trace-exec, after execve gdb.py sends SIGINT to the process and waits for it though the process is stopped and was not let go on (it hangs until Control-C). C129_forgotten_refuted: with two processes, cont sends PTRACE_CONT to the one that still runs; the kernel says ESRCH, gdb.py takes it for dead, forgets it and does not wait, so the next cont loses the other one, too; the session ends with both processes running, neither killed nor detached. Proved for one process without such events (C129_run_partial, C129_prompt_partial, C129_delivery_partial)."
  },
  {
   "property": "C130",
   "status": "partial",
   "theorems": [
    "PT.C130_same",
    "PT.C130_run_partial",
    "PT.C130_count_partial",
    "PT.C130_execve_refuted"
   ],
   "note": "Partial: the last sentence is false: after a failed execve without events the result of the next call is shown as a call and the call after it as its result (C130_execve_refuted). C130_run_partial is about plain deeds (no failed execve unless there are events, no signal 133), like C125; C130_count_partial gives the number of lines for programs without signals, whose lines are those of C106. C130_same removes the output."
  },
  {
   "property": "C131",
   "status": "partial",
   "theorems": [
    "PT.C131_tree_partial",
    "PT.C131_count_partial",
    "PT.C131_killed_refuted"
   ],
   "note": "Partial: as C128, no process is killed before its first stop; for such a process the end is printed and the beginning is not, and the call that made it is never printed (C131_killed_refuted), and no failed execve without events (C130_execve_refuted). C131_tree_partial gives the blocks of lines and their order; C131_count_partial the number of lines, for trees without signals, whose lines are those of C106."
  },
  {
   "property": "C132",
   "status": "partial",
   "theorems": [
    "PT.C132_end_partial",
    "PT.C132_start_partial",
    "PT.C132_result",
    "PT.C132_unknown",
    "PT.C132_socket_partial",
    "PT.C132_line_partial",
    "PT.C132_cut_partial",
    "PT.C132_tree_partial",
    "PT.C132_tree_cut_partial",
    "PT.C132_refuted"
   ],
   "note": "Partial: calls whose name is in the table of the CPU and has a prototype, kernels whose replies are complete (C132_refuted: else the name of a file is shortened), socketcall up to sub-call 17 (C73), texts of arguments as far as C84, C86, C88 and C89; the tree as C131."
  },
  {
   "property": "C133",
   "status": "partial",
   "theorems": [
    "PT.C133_run_partial",
    "PT.C133_order_partial",
    "PT.C133_delivery_partial",
    "PT.C133_lost_refuted",
    "PT.C133_interrupted_refuted",
    "PT.C133_running_refuted",
    "PT.C133_call_refuted",
    "PT.C133_failed_refuted"
   ],
   "note": "Partial: one process; the claims about signals, about the prompt and about sys are false in general. C133_lost_refuted: a signal kept for the next cont is lost when a step is cut short by another one. C133_interrupted_refuted: a signal that arrives while gdb.py stops the program after Control-C is shown and lost. C133_running_refuted: after Control-C in stepi the process runs while the user is at the prompt. C133_call_refuted: after sys, stepi the next sys takes the start of a call for the end of the previous one. C133_failed_refuted: gdb.py fails when the program ends while it is being stopped after Control-C. (signal drops what arrives: C43_refuted.) Proved: the exact requests (C133_run_partial), signals are given in order and never twice (C133_order_partial, without signal), and none is lost when no step is cut short and no wait interrupted (C133_delivery_partial, without signal and sys)."
  },
  {
   "property": "C134",
   "status": "partial",
   "theorems": [
    "PT.C134_transparent_partial",
    "PT.C134_trap_refuted"
   ],
   "note": "Partial: one process, plain deeds (as C125), and no SIGTRAP sent to the program; with SIGTRAP the claim is false (C134_trap_refuted): strace.py does not pass it on and the program does something else."
  },
  {
   "property": "C135",
   "status": "partial",
   "theorems": [
    "PT.C135_open_partial",
    "PT.C135_ends_partial",
    "PT.C135_killed_refuted"
   ],
   "note": "C135_open_partial: for every run in which the kernel kept its promises (a stopped process stays until it is told to go on, process numbers are used once). C135_killed_refuted: if a stopped process is killed from elsewhere, the request to go on is refused, strace.py gives up and kills all other processes. C135_ends_partial: it ends if the processes make few enough stops."
  },
  {
   "property": "C136",
   "status": "partial",
   "theorems": [
    "PT.C136_lines_partial",
    "PT.C136_text_partial",
    "PT.C136_cut_partial",
    "PT.C136_count_partial"
   ],
   "note": "Partial: as C135 (promises kept in this run, process numbers used once) and C131 (no process is killed before its first stop: C131_killed_refuted; no failed execve without events: C130_execve_refuted). C136_text_partial: texts as far as C132. The output is looked at between two stops, when strace.py waits or has ended. C136_cut_partial: the lines of calls that have not ended; C136_count_partial: the number of lines at any moment, without signals."
  },
  {
   "property": "C137",
   "status": "partial",
   "theorems": [
    "PT.C137_name",
    "PT.C137_line",
    "PT.C137_open_partial",
    "PT.C137_refuted",
    "PT.C137_compat_refuted"
   ],
   "note": "C137_name and C137_line: for each of the five tables, exactly which calls of the header (linux 6.8) are shown under their name, under another name, and by number; C137_line needs nothing of the memory. C137_open_partial carries this to whole runs in an open world (as C136; a replaced socketcall is C132_socket_partial). Refuted in full: number 283 of x86-64 and 54 numbers of i386 have other names, numbers newer than the tables have none (C137_refuted), and a program of 32 bits on x86-64 is shown with the names and registers of 64 bits: write is shown as stat (C137_compat_refuted)."
  },
  {
   "property": "C138",
   "status": "partial",
   "theorems": [
    "PT.C138_free_partial",
    "PT.C138_ends_partial",
    "PT.C138_trap_refuted"
   ],
   "note": "C138_free_partial: for all natures of processes (M), all kernels whose answers in this run agree with M and with what ptrace(2) promises (Kept). C138_ends_partial: if alone they go on at most a bounded number of times and start processes from a finite list only, strace.py ends and all are over (the kernel must not be silent for ever, Wakes). Missing: signal 5 sent to a process (strace.py takes it away: C138_trap_refuted), and as in C135 processes that vanish while they are stopped. The stop by attach and the trap after execve exist for a tracer only; they are not counted as signals. Not covered: how long processes take."
  },
  {
   "property": "C139",
   "status": "partial",
   "theorems": [
    "PT.C139_options",
    "PT.C139_only",
    "PT.C139_strace_partial",
    "PT.C139_gdb_partial",
    "PT.C139_ends",
    "PT.C139_stops",
    "PT.C139_gdb_stops",
    "PT.C139_program_refuted",
    "PT.C139_zero_refuted",
    "PT.C139_octal_refuted",
    "PT.C139_output_refuted"
   ],
   "note": "The library optparse of Python is part of the model (trusted text, not repository code). Refuted: without `--` the words of the program that look like switches are taken by strace.py or end it (C139_program_refuted); `--pid 0` starts a program, even if there is none (C139_zero_refuted); a number with a zero in front is octal (C139_octal_refuted); an empty name for `--output` is no name (C139_output_refuted). The partial theorems are for numbers without a zero in front, a process other than 0 and a name that is not empty; C139_options, C139_only, C139_ends and C139_stops hold without."
  },
  {
   "property": "C140",
   "status": "partial",
   "theorems": [
    "PT.C140_request",
    "PT.C140_objects",
    "PT.C140_again_refuted"
   ],
   "note": "C140_again_refuted: a process that the kernel refuses to let go stays in the debugger, but its object says it is not attached, so that a later detach asks for nothing."
  },
  {
   "property": "C141",
   "status": "partial",
   "theorems": [
    "PT.C141_options_partial",
    "PT.C141_strace_partial",
    "PT.C141_early"
   ],
   "note": "C141_strace_partial (the whole run: where the lines go, exit status, first line, blocks of the stops, which calls are shown and how their lines begin and, with a known prototype, all of them), C141_options_partial (the options are used as they are meant), C141_early (lines that end strace.py at once make no request). Partial: as C136 (promises of the kernel hold for the run), C137 (five CPUs, a replaced socketcall is not named) and C139 (no --pid 0, no empty --output, decimal numbers); numbers are not negative and the file of --output can be opened."
  },
  {
   "property": "C142",
   "status": "partial",
   "theorems": [
    "PT.C142_leave_partial",
    "PT.C142_gdb_partial",
    "PT.C142_early",
    "PT.C142_spares",
    "PT.C142_origin",
    "PT.C142_children_refuted"
   ],
   "note": "C142_gdb_partial and C142_leave_partial: as C133 and C139 (one process, no fork/clone options, kernel refuses nothing), and no Control-C while gdb.py ends. C142_spares holds for every kernel and input. False for the children of a process that was there before: with --fork -p they are killed when the user leaves (C142_children_refuted). The children of a fork count as created by the debugger because addProcess gets is_attached=True."
  },
  {
   "property": "C143",
   "status": "proved",
   "theorems": [
    "PT.C143_library",
    "PT.C143_strace",
    "PT.C143_gdb"
   ],
   "note": "Proved for every kernel. C143_gdb assumes that the expression parser given to the prompt raises no process event (NoEvent), as parseInteger does. A negative number after -p is taken as 0 by the model. The number 0 counts as asked for only if the user gave it."
  },
  {
   "property": "C144",
   "status": "partial",
   "theorems": [
    "PT.C144_library",
    "PT.C144_quit_partial",
    "PT.C144_strace",
    "PT.C144_step_refuted",
    "PT.C144_gdb_partial",
    "PT.C144_gdb_refuted"
   ],
   "note": "C144_library, C144_strace: for every kernel. C144_quit_partial: after quit the end of each created process was told, if told by ESRCH it may still be alive. C144_step_refuted: gdb.py prog, stepi, interrupt, quit: singleStep does not clear is_stopped, so terminate uses PTRACE_CONT, ESRCH means 'not stopped', and a living process is taken for ended and left. C144_gdb_partial: gdb.py, whatever is typed: a process is taken for ended only if its end was told or a request for it was refused with ESRCH; C144_gdb_refuted: cont asks a running second process to continue, is refused, and gdb.py forgets the process without detaching it. Processes with the number 0 are left out."
  },
  {
   "property": "C145",
   "status": "partial",
   "theorems": [
    "PT.C145_strace_partial",
    "PT.C145_detach_refuted",
    "PT.C145_first_refuted",
    "PT.C145_gdb_refuted",
    "PT.C145_gdb_partial",
    "PT.C145_cont_refuted"
   ],
   "note": "C145_strace_partial covers strace.py from its command line to its end, for all requests but PTRACE_DETACH, provided the kernel answers a wait for a process with news of that process and the user does not interrupt the wait for the first stop of a process. False without these: C145_first_refuted (interrupted before the first stop, strace.py asks for options, is refused, takes the refusal of PTRACE_CONT for the end, and ends with status 0 while the program was neither killed nor detached), C145_detach_refuted (interrupted while the process is running, quit asks to detach a running process and ends with the exception), C145_gdb_refuted (singleStep leaves is_stopped set, so that gdb.py continues a running process), C145_cont_refuted (with two processes, cont asks the one that is still running). C145_gdb_partial covers gdb.py from its command line to its end, whatever is typed, while it traces one process at a time, without stepi and without an interrupt during a call of the kernel."
  },
  {
   "property": "C146",
   "status": "partial",
   "theorems": [
    "PT.C146_flag_partial",
    "PT.C146_signal_partial",
    "PT.C146_quit_partial",
    "PT.C146_terminate_partial",
    "PT.C146_step_refuted",
    "PT.C146_first_refuted",
    "PT.C146_event_refuted"
   ],
   "note": "C146_flag_partial: if is_stopped is set, the process is stopped, after any calls of methods of registered processes except singleStep; C146_signal_partial: if it is stopped by a signal, is_stopped is set; C146_quit_partial and C146_terminate_partial: their requests (but PTRACE_DETACH) are made to stopped processes. False in general: C146_step_refuted (singleStep leaves the attribute set), C146_first_refuted (a new process counts as stopped before its first stop is told), C146_event_refuted (a process stopped for an event does not count as stopped)."
  },
  {
   "property": "C147",
   "status": "partial",
   "theorems": [
    "PT.C147_library_partial",
    "PT.C147_strace_run_partial",
    "PT.C147_strace_partial",
    "PT.C147_refuted",
    "PT.C147_add_refuted",
    "PT.C147_gdb_refuted",
    "PT.C147_gdb_run_partial",
    "PT.C147_gdb_main_partial"
   ],
   "note": "`C147_library_partial`: every call, in any state that calls lead to; the exceptions are a KeyError if the kernel tells of a new process with the number of a registered one, a KeyError if the caller adds a registered process, an IndexError if it waits for any process and there is none. `C147_strace_run_partial` and `C147_strace_partial`: strace.py, where only the first of them can happen. Refuted: `C147_refuted` (the number of a thread that called execve is given to a new process: KeyError, exit code 1), `C147_add_refuted` (for every kernel and state), `C147_gdb_refuted` (in gdb.py, `attach` with the number of the traced process ends the session and kills the process); the IndexError is `C35_refuted`. `C147_gdb_run_partial`: any session of gdb.py; besides the first exception, a KeyError only if an `attach` was typed and its argument is the number of a registered process, and an exception of the evaluation of an argument other than ValueError (a division by zero: `C96_zero_refuted`). `C147_gdb_main_partial`: what leaves `main`."
  },
  {
   "property": "C148",
   "status": "partial",
   "theorems": [
    "PT.C148_strace",
    "PT.C148_gdb",
    "PT.C148_library_partial",
    "PT.C148_detached_refuted",
    "PT.C148_strace_ended",
    "PT.C148_gdb_ended_partial",
    "PT.C148_gdb_sigint_partial",
    "PT.C148_library_ended",
    "PT.C148_ended_refuted"
   ],
   "note": "C148_strace, C148_gdb (registered processes and the right signals) and C148_strace_ended (never after the end was told) hold for the whole programs without any condition, C148_library_ended for all sequences of method calls, also for objects that are not registered, but for the method kill of an ended process. C148_gdb_ended_partial: the same for all signals of gdb.py but SIGINT; false for SIGINT: C148_ended_refuted (a process whose addProcess failed is never unregistered; Control-C sends SIGINT to its number after its end). C148_library_partial: only registered processes, if kill and terminate are called for registered processes. False without that: C148_detached_refuted (detach leaves running set; a program stopped because of execve, which leaves is_stopped unset, is detached, and terminate then sends SIGKILL to its number). C148_gdb_sigint_partial: gdb.py sends no signal at all to such a process, SIGINT included, if the kernel answers for the process that is asked for and tells of events of a process (fork, clone, exec) only after it told that the process stopped by a signal (PlainLog), with fuel for two waits at least; calls may fail and waits be interrupted at any time. Missing for SIGINT: an event as the first news of a process and odd replies, by which addProcess fails; there it is false."
  },
  {
   "property": "C149",
   "status": "proved",
   "theorems": [
    "PT.C149_library",
    "PT.C149_strace",
    "PT.C149_gdb"
   ],
   "note": "C149_library, C149_strace, C149_gdb: without any condition. The converse is C144. The object may stay registered all the same (C148_ended_refuted and the example with puzzled). Processes with the number 0 are left out."
  }
 ]
}
