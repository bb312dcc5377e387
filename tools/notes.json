{
 "C01": "all integers, both widths and the word-size aliases",
 "C02": "both byte orders and word sizes; rejection of out-of-range words and wrong lengths",
 "C03": "non-negative addresses",
 "C04": "the code swaps unconditionally: proved for little-endian hosts, refuted for big-endian hosts",
 "C05": "PTRACE_PEEKTEXT path, arbitrary per-request failures; both byte orders and word sizes",
 "C06": "arbitrary kernel answers; plus a sufficient condition for success",
 "C07": "both directions; write back of read bytes is harmless even when it fails halfway",
 "C08": "every outcome of every write; the set of exceptions that can escape",
 "C09": "arbitrary /proc replies; fallback is sticky over every history of reads and writes",
 "C10": "refuted: short /proc replies are returned as they are; proved for complete replies and for the fallback; C10_exact: a short result is returned only for a short nonzero count from the kernel",
 "C11": "proved for complete replies and for paged address spaces (chunk <= page); refuted for a kernel that cuts reads at arbitrary places",
 "C12": "refuted (flag set although the whole string fits); the exact condition of the flag is proved",
 "C13": "iterations bounded by max/chunk+1; no request beyond the chunk of the first NUL (complete replies)",
 "C14": "whole left-to-right scan of the mapping, chunking invisible; needs complete replies of the reads the search makes",
 "C15": "refuted for the empty pattern (loops forever); every non-empty pattern terminates",
 "C16": "arbitrary tables plus whole-table facts for all seven register tables; failures leave registers untouched",
 "C17": "refuted for x86_64 eax/ebx/ecx/edx (upper half returned) and iopl (mask 2); proved for all other entries of both Intel tables",
 "C18": "refuted for shifted entries (mask not shifted: ah, flags) and eax (TypeError); proved for al..dx, cf; exact damage of shifted writes proved",
 "C19": "restores memory for one byte breakpoints under every kernel and for all sizes with complete replies; refuted for a short reply to a larger read",
 "C20": "induction over histories of creates/removes, including failing one byte operations; refuted for larger breakpoints that cover a listed one (only the start address is checked)",
 "C21": "idempotent even after a first call that raised; dead process untouched; set_ip",
 "C22": "all kernel-built statuses and the complete classification of every integer; message texts",
 "C23": "exact text for stopped, killed (with/without core) and exited statuses",
 "C24": "refuted for every exit code but 0, for core dumps and stops (si_status decoded as a wait status); true for killed children and exit code 0",
 "C25": "invariant over every history of library calls with every kernel; refuted when the user calls deleteProcess on an attached process and adds the pid again",
 "C26": "every state, every registered pid",
 "C27": "refuted (setoptions failure); exact characterisation of the cases where the pid stays registered",
 "C28": "order and spared processes for every reachable state and kernel; registry refuted after a failed detach, true when every registered process is attached",
 "C29": "C29_once_partial: count bounded by one plus the number of attach() calls of the user (refuted only by such calls: C29_refuted). C29_ended: none after the object is known not to run. C29_told: none after the kernel told the end of the process to a wait, for all sequences of method calls; C29_strace, C29_gdb: the same for the programs.",
 "C30": "every history, every kernel",
 "C31": "every history; the wait for any child is excluded when pid 0 is never used",
 "C32": "filtering and re-raising for every event; surfacing refuted for the first stop of a new process, true for every other status",
 "C33": "every kernel; the log shows the kernel's event, the reported pid and the options set last",
 "C34": "refuted for a registered process whose detach failed before; true for attached processes",
 "C35": "refuted for every kernel (IndexError); no IndexError otherwise",
 "C36": "refuted after a failed detach; true for running attached processes; one SIGKILL if the kernel never reports a stop by SIGKILL",
 "C37": "options are the fold of the calls made; every addProcess that returns sets them last",
 "C38": "alternation over every history of library calls, events of other processes and failing reports; start and end reports exact",
 "C39": "all requests of every run are the answers to its events; refuted when the child of a fork ends before it is registered (the parent is never resumed); exact for events seen by waitpid",
 "C40": "refuted: a process killed without a signal stop (SIGKILL) gives the stale code 0; the exit code of every run is characterised exactly, right when the last process exits or dies of the last signal passed on",
 "C41": "arbitrary tables, options and regular expression (as a predicate); selection, reporting and display",
 "C42": "refuted: the last new name of the list is never validated; an unknown name followed by a further new name is an error, known names never are; C42_exact says exactly when the list is rejected",
 "C43": "every history of lines typed at the prompt, every kernel; cont sends to each process the given or kept signal and drops it only once accepted; never twice; other commands keep it. Refuted: the command signal drops a signal that arrives while it runs; proved for cont, and for signal when another process is stopped. Signals that arrive while interrupting or attaching are not stored by the code",
 "C44": "every reachable state; also that the current process is always registered",
 "C45": "any reader and expression parser: rows read once in order, shown byte by byte or inside a reported range of unreadable rows, limit announced exactly when cut. Refuted with readBytes: a short /proc/pid/mem reply leaves bytes of a row neither printed nor reported; proved for complete replies and for PTRACE_PEEKTEXT",
 "C46": "for every command interpreter; split and strip have an independent specification",
 "C47": "parseInteger and parseExpression, any text, registers and evaluator; eval is a parameter. Used of Python's text functions: newline is white space and lower() adds no final newline. An unknown register raises its own exception before the check",
 "C48": "literals, registers, whole expressions (text evaluated, word reduction, pointers) and word range for every text. eval is a parameter of which only decimal numbers are assumed; decimal literals with leading zeros are not Python literals (SyntaxError, so ValueError)",
 "C49": "every platform table with distinct attribute names; short names need that no signal is called SIG plus another signal's name (holds on Linux)",
 "C50": "every stat line, any program name; refuted for a carriage return in the name (text mode reads it as newline), otherwise exact. A name that is not UTF-8 raises UnicodeDecodeError (outside the statement, in the model)",
 "C51": "whole file, any number of lines, all field values; ProcessError exactly when some line does not match the expression; refuted for a path with a carriage return (the line is cut, ProcessError)",
 "C52": "every list of NUL-free strings; refuted for carriage returns, exact otherwise",
 "C53": "every environment whose variables have an equals sign: subsequence, budget, count, everything shown when it fits, and the text; refuted without an equals sign (TypeError)",
 "C54": "snapshot of /proc; every listing and process table whose files can be decoded and have no carriage return; refuted: an unrelated process whose command line is not UTF-8 ends the search with UnicodeDecodeError",
 "C55": "every value and table (disjoint masks for the list, single bits for the sum, distinct non-numeric names for injectivity); the text of formatBits is injective for every table",
 "C56": "texts determine the value for all five formatters; names shown and completeness against the constants of the kernel (x86); open: O_TMPFILE and O_SYNC are shown when only a part of their bits is set, and on ARM four names are exchanged (refuted), otherwise partial; the text of open flags with bit 3 = both access bits shows O_WRONLY|O_RDWR",
 "C57": "every memory content; little endian and nfds up to 1024 (partial); refuted for descriptors from 1024 on and for big endian machines",
 "C58": "every register value, errno table and message; injective for values of a register",
 "C59": "every command, argument, earlier state and kernel reply; ctypes with glibc in full; the C extension without error numbers and for signed word arguments (partial); refuted: the C extension reports error 0 and overflows for words from 2^63 on, ctypes on a libc that does not reset errno",
 "C60": "every integer",
 "C61": "every path, PATH value and set of executable files; relative paths name the same file when no symbolic link is on the way; refuted for a link before ..",
 "C62": "every descriptor table below MAXFD with open standard descriptors and open pass_fds (partial); refuted for descriptors from MAXFD on and for pass_fds naming the closed number that the error pipe gets; C62_exact gives the table after the closing loop without a bound on the descriptors",
 "C63": "every failure of open, redirection and exec (partial); C63_sound for every state; refuted: PTRACE_TRACEME or set_inheritable failing in the child is not reported, and the pipe on number 2 is overwritten by the redirection",
 "C64": "every call and any number of interruptions",
 "C65": "every stack content where the frames within the depth are readable (partial), bounds for every stack; refuted: one unreadable return address or frame loses the whole backtrace; C65_lost: the backtrace is lost exactly when a frame within the depth is torn",
 "C66": "every entry of the seven tables and of the prototypes with aliases, by kernel evaluation of complete tables and lemmas lifting the checks",
 "C67": "every argument list, types and names on or off",
 "C68": "every pointer array, any tracer state; refuted for exactly max strings (shown as 'more than max') and for max = 0 (one string shown); terminates for every memory",
 "C69": "every state of a process that answers with values or PtraceError; refuted for instructions without operands (IndexError while reporting), a stack pointer at the end of the stack, and MOVS without siginfo (TypeError)",
 "C70": "every reachable state and kernel; None means that each registered pid was polled once, in order",
 "C71": "aarch64, riscv32, riscv64 agree completely with linux-libc-dev 6.8; x86_64 refuted at 283 (timerfd for timerfd_create, which loses the prototype); i386 uses names of kernel functions for 54 numbers; PowerPC is not compared, its headers are not available here",
 "C72": "every CPU, against the conventions of syscall(2)",
 "C73": "the first 17 sub-calls (partial); refuted: accept4, recvmmsg, sendmmsg and any unknown sub-call raise KeyError (C73_unknown); C73_shown, C73_shown_unknown: the text of the array when the call is not replaced",
 "C74": "pointers and untyped arguments (partial), lost arguments, and plain values; refuted for arrays like int[2] of pipe when calls are also shown on entry",
 "C75": "moves into memory, other operators with a memory operand first or second, and string copies, for any operand text; refuted for TEST (said to write), MOVS with explicit operands (the source said to be written), SCAS (no direction), QWORD (no direction, no size) and DQWORD (8 bytes instead of 16)",
 "C76": "any address, size and mappings not smaller than the access (partial); 'not mapped' is right for the first and last byte; refuted without a size: the byte after the end of a mapping is said to be in it",
 "C77": "sound for every operand text; complete for the registers with three letters, segments and low bytes (partial); refuted for R8-R15",
 "C78": "divisions and only they are explained; other signals unchanged; refuted: a quotient overflow is reported as division by zero",
 "C79": "every history of breakpoints on whole instructions, with complete reads (partial); refuted for a breakpoint smaller than its instruction and for instructions longer than MAX_INSTR_SIZE = 11",
 "C80": "consecutive with the bytes of memory for every kernel reply; exact for instructions up to MAX_INSTR_SIZE with complete reads (partial); refuted at the end of a given range, and with the libdistorm64 wrapper on Python 3 (TypeError)",
 "C81": "exact for instructions up to MAX_INSTR_SIZE with complete reads (partial); refuted: after a delete whose write failed, the next delete reports success and does nothing",
 "C82": "for a trap at the first byte of a breakpoint of the current process (partial); refuted for traps in the middle, for SIGTRAP sent by others, and for other processes than the current one",
 "C83": "memory and list restored after every run, also after exceptions (partial); refuted: the instruction pointer is moved when the process stopped elsewhere; the breakpoint stays when cont fails",
 "C84": "text and bytes determine each other (proved); the bytes against memory as C11/C12, for complete replies of the kernel or a paged address space; for any kernel a text without dots is the whole string (C84_whole_partial); refuted: a kernel that cuts reads gives a text that is not the beginning of the string",
 "C85": "when the read is complete (partial); refuted: a short read is shown without dots",
 "C86": "timeval, timespec, pollfd, new_utsname for complete reads, rlimit below half of the range (partial); refuted: short reads show memory of the tracer, RLIM_INFINITY is shown as -1, user_desc has another layout on 64 bits; C86_distinct_partial: equal texts of times and pollfd come from equal bytes; C86_layout: offsets follow the C rule for every structure",
 "C87": "little endian, when the whole structure can be read (partial); refuted: abstract sockets look alike, bytes behind the length are shown; C87_distinct_partial: equal texts come from equal families and fields",
 "C88": "all entries of the tables except fcntl from 5 on, resource 15 and socket options, which are right for one level (partial); refuted for these; SOCK_NONBLOCK hides the type",
 "C89": "every argument has a text (proved); integers for signed types of 32 bits, unsigned types without higher bits, others below 2^31 (partial); refuted for size_t, long, uid_t and unsigned int otherwise",
 "C90": "eight instruction sets; the kernel's layout and its copying are hypotheses, met by a concrete machine for each",
 "C91": "number, code, address, process and status; times on 32 bits (partial); refuted: users from 65536 on, times on 64 bits",
 "C92": "little endian or 32 bits, messages below 2^31 (partial); refuted: 64-bit big endian reads the upper half, the kernel writes 8 bytes to an object of 4",
 "C93": "peeks with a C library that clears errno or with the C extension, see C59",
 "C94": "Intel CPUs (partial); refuted on ARM: the kernel writes 116 bytes to a structure of 108",
 "C95": "every use of the manual is run as such; refuted: switchboard, signalsx and `breakpoints 5` run commands, quit is unknown after a semicolon; partial for everything else",
 "C96": "for every value and list of mappings; refuted: print 1/0 ends gdb",
 "C97": "full registers; nothing changes in any other case; refuted: set $eax=1 on x86_64 ends gdb, set $ah=0 does not clear the bits",
 "C98": "complete when all mappings can be read and no term is empty, true lines for any kernel; refuted: overlapping pointers are missed, one unreadable mapping stops the report, an empty term never ends, semicolons cut terms",
 "C99": "for all texts and states; dumpCode itself is C79",
 "C100": "for every process; refuted: digits do not follow the width of a register of 16 bits, gcore never writes a dump",
 "C101": "variables with an equals sign, no carriage returns (partial); refuted: a variable without an equals sign ends the report; a process stopped by a signal is called traced",
 "C102": "statm, links, uptime for all files; the boot date with the clock offset of 1970 (refuted elsewhere); timestamps in range (partial), refuted outside; isTraced looks at the letter T (partial), refuted for traced processes",
 "C103": "levels DEBUG to ERROR; refuted: without an exception no line says that there is no backtrace, derived classes are not raised again (partial), CRITICAL becomes ERROR",
 "C104": "fewer than 32768 rows and columns (partial), refuted beyond; functions that return (partial), refuted: the exception of a profiled function is replaced",
 "C105": "eval is assumed to compute arithmetic by Python's grammar (a parser that does is built to show the assumption can be met); a part that is no integer (2**-1) is left out; refuted: decimal numbers with a superfluous leading zero are refused",
 "C106": "sizes of zero are left out of the message and so out of the claim (partial); refuted: the message about a stack overflow says that the stack pointer is in the stack, and it never is",
 "C107": "the texts of calls and results (C84 to C92) and of signals (C106) are parameters; the filter is proved for runs in which processes are registered by the events that report them (partial); the line about the new program is right for 40 variables (partial), refuted for any other number",
 "C108": "Partial: what was yielded are views of a reused buffer. Used at once they are right for every decoder (C108_stream); used later only if all came in one batch (C108_later_partial); C108_later_refuted: with more instructions than slots the first one yielded shows an instruction of another address at the end. disassemble and disassembleOne of the project use the instruction at once. The C function is a parameter.",
 "C109": "Partial: true if every breakpoint was removed before (C109_clean_partial), and of removeBreakpoint if nothing else refers to the breakpoint (C109_remove_partial). Refuted: detach leaves every listed breakpoint in the code (C109_detach_refuted), the finalisers never remove one because their weak reference is dead (C109_final), removeBreakpoint leaves it if a variable refers to the object (C109_remove_refuted).",
 "C110": "Partial: true without listed breakpoints (C110_fork_partial, C110_exec_partial). Refuted: the child has every trap of its parent and its object knows none (C110_fork_refuted); removing a breakpoint after execve writes bytes of the old program over the new one (C110_exec_refuted).",
 "C111": "Partial: refuted for i486, i586 and aarch64_be, which are not recognised (C111_names_refuted); every other name Linux prints is (C111_names_partial). C111_one, C111_errors, C111_word, C111_sound, C111_unknown and C111_os hold in full.",
 "C112": "Partial: proved for native processes except the stack pointer of ARM (C112_table, C112_pointers_partial, C112_read_partial). Refuted: on ARM the stack pointer is taken from r14, the link register (C112_arm_refuted, C112_arm_link); a 32-bit Python on an x86-64 kernel has the structure of i386 with the names of x86-64 and every access to the three pointers raises PtraceError (C112_mixed_refuted).",
 "C113": "Partial: the order and the pauses hold (C113_order, C113_prompt); a process is reported when no earlier one has anything to report (C113_fair_partial). Refuted as fairness: every wait asks from the first process again, so while the first one keeps stopping the second is never asked for, however many events are served (C113_refuted).",
 "C114": "simulation between the debugged process and the free program; partial: the program must not use bytes of listed breakpoints (C114_reads_refuted), stepi on a breakpoint executes the trap and leaves the process behind it (C114_stepi_refuted), step on a breakpoint skips the instruction (C114_step_refuted); traps of one byte, reads complete, breakpoints do not overlap",
 "C115": "Proved: number and kind of the resumptions, the pairing of reads and single steps, and all lines. Refuted: without -n (the default) the comparison with None raises TypeError before anything is traced; 'died with signal' is printed for a signal the process has not even received and may survive; the exit status is 0 whatever the program returned. The number N counts stops, two per system call (C38).",
 "C116": "C116_read, C116_write and C116_error say exactly what happens for every answer. Refuted in full: the length the kernel stores in the descriptor is ignored, so after a short transfer the rest of a read is zeros, the rest of a write is missing, and a string is reported as complete that is not; an address above the address space is reduced modulo the pointer size instead of refused. Partial: kernels that move whole blocks, addresses that fit a pointer.",
 "C117": "C117_event and C117_gone hold for every kernel. Refuted: a non-blocking wait makes a blocking one when the process exited; if the second wait is interrupted (Ctrl-C) the exit code is lost and the process is reported later as gone without a code. Partial: exactly two waits when the second is answered with an end or ECHILD.",
 "C118": "every header (partial) where no name of a parameter ends in long, int or size_t and unnamed types end in one of these or in *; refuted otherwise: a name like hint becomes part of the type, an unnamed type becomes the name, a blank before a comma raises AttributeError",
 "C119": "Requests: proved for both systems. Registers: proved for FreeBSD amd64/i386 and OpenBSD/i386 (partial). Refuted: on OpenBSD/amd64 the structure has 64 of the kernel's 192 bytes, so registers are written behind the object and there is no rip; OpenBSD has no PTRACE_SYSCALL, so syscall() raises without a request; on FreeBSD/PowerPC getregs joins bytes with a text and never returns.",
 "C120": "Partial: names on FreeBSD, arguments when six words can be read (calls that are not formatted early), results when the carry flag is clear. Refuted: OpenBSD has no names; the carry flag is ignored, so a failed call is shown as one that returned the error number; six stack words are read even for a call without arguments, and a failure to read ends the trace; 64-bit arguments on i386 shift the following ones (lseek shows the upper half of the offset as whence).",
 "C121": "Partial: ctypes with a C library that resets errno after a peek (glibc), or while no request has failed. The word loops over the binding are shown to simulate those of C05-C08 (refinement), so the theorems carry over. Refuted: with musl any memory that contains an aligned word of ones is unreadable after one failed request; with the C extension a word with its highest bit set cannot be written (OverflowError, no request); an address beyond the last word is cut by ctypes and another word is read.",
 "C122": "C122_pass_partial: stops other than SIGTRAP, the system call mark (SIGTRAP|0x80) and the first stop of a new process are passed on, one to one and in order. The full statement is false: C122_trap_refuted (a real SIGTRAP is taken away from the process), C122_first_refuted (a signal that arrives while attaching is lost and the SIGSTOP of attaching is delivered instead).",
 "C123": "Partial: the classes are those of the manual pages. `--filename` selects by names of arguments and misses 23 calls whose argument is named otherwise or that have no prototype (mount, swapon, umount2, openat2, ...; C123_file_partial gives the exact list, C123_file_refuted two of them). `--socket` misses accept4, sendmmsg, recvmmsg and, on PowerPC, send, recv and socketcall (C123_socket_partial, C123_socket_refuted); on i386 it is exact (C123_socket_i386). C123_subcall_refuted: on i386 a selection by the name of a sub-call of socketcall shows nothing, because the filter sees the name before the replacement. C123_names: names of the table of the CPU select exactly those calls; C123_nameless_refuted: seven calls of 32 bit PowerPC have the empty name and no text selects them.",
 "C124": "Partial: the claim about trap bytes is for gdb.py without a disassembler and not on PowerPC (breakpoints of one byte); with a disassembler breakpoints may overlap and a trap byte is left behind (C124_overlap_refuted). The other claims hold without restriction. An exception that ends gdb.py ends the session.",
 "C125": "C125_run_partial: the whole session of strace.py for every program of one process, by induction on the program. Missing: a failed execve without events, for which C125_execve_refuted shows that strace.py swallows the start of the next call and exchanges starts and ends from then on; programs with several processes; a signal with number 133; kernels that refuse a request.",
 "C126": "Proved with the exact list of requests for every registry and every list of pending signals. Three refutations: an event (exec, fork) on its way while the process is killed leaves quit as an exception, so does Control-C while quit waits, and the OSError of os.kill for a process that is gone is not caught (only PtraceError is); in all cases processes stay registered and those attached before are never released.",
 "C127": "The run is proved with its exact list of requests. The signal that stopped an attached process is lost when it is detached (refuted with a witness): detach passes no signal.",
 "C128": "For every tree whose stops are those of ptrace(2), every interleaving and every option, the acts for each process are exactly those of its own stops, independent of the others. The exit code is that of the process that ends last (refuted with one tree and two schedules), and a process that is killed before its first stop leaves its parent stopped for ever (refuted with a witness).",
 "C129": "Partial: the statement is false with events and with several processes. C129_exec_refuted: with --trace-exec, after execve gdb.py sends SIGINT to the process and waits for it though the process is stopped and was not let go on (it hangs until Control-C). C129_forgotten_refuted: with two processes, cont sends PTRACE_CONT to the one that still runs; the kernel says ESRCH, gdb.py takes it for dead, forgets it and does not wait, so the next cont loses the other one, too; the session ends with both processes running, neither killed nor detached. Proved for one process without such events (C129_run_partial, C129_prompt_partial, C129_delivery_partial).",
 "C130": "Partial: the last sentence is false: after a failed execve without events the result of the next call is shown as a call and the call after it as its result (C130_execve_refuted). C130_run_partial is about plain deeds (no failed execve unless there are events, no signal 133), like C125; C130_count_partial gives the number of lines for programs without signals, whose lines are those of C106. C130_same removes the output.",
 "C131": "Partial: as C128, no process is killed before its first stop; for such a process the end is printed and the beginning is not, and the call that made it is never printed (C131_killed_refuted), and no failed execve without events (C130_execve_refuted). C131_tree_partial gives the blocks of lines and their order; C131_count_partial the number of lines, for trees without signals, whose lines are those of C106.",
 "C132": "Partial: calls whose name is in the table of the CPU and has a prototype, kernels whose replies are complete (C132_refuted: else the name of a file is shortened), socketcall up to sub-call 17 (C73), texts of arguments as far as C84, C86, C88 and C89; the tree as C131.",
 "C133": "Partial: one process; the claims about signals, about the prompt and about sys are false in general. C133_lost_refuted: a signal kept for the next cont is lost when a step is cut short by another one. C133_interrupted_refuted: a signal that arrives while gdb.py stops the program after Control-C is shown and lost. C133_running_refuted: after Control-C in stepi the process runs while the user is at the prompt. C133_call_refuted: after sys, stepi the next sys takes the start of a call for the end of the previous one. C133_failed_refuted: gdb.py fails when the program ends while it is being stopped after Control-C. (signal drops what arrives: C43_refuted.) Proved: the exact requests (C133_run_partial), signals are given in order and never twice (C133_order_partial, without signal), and none is lost when no step is cut short and no wait interrupted (C133_delivery_partial, without signal and sys).",
 "C134": "Partial: one process, plain deeds (as C125), and no SIGTRAP sent to the program; with SIGTRAP the claim is false (C134_trap_refuted): strace.py does not pass it on and the program does something else.",
 "C135": "C135_open_partial: for every run in which the kernel kept its promises (a stopped process stays until it is told to go on, process numbers are used once). C135_killed_refuted: if a stopped process is killed from elsewhere, the request to go on is refused, strace.py gives up and kills all other processes. C135_ends_partial: it ends if the processes make few enough stops.",
 "C136": "Partial: as C135 (promises kept in this run, process numbers used once) and C131 (no process is killed before its first stop: C131_killed_refuted; no failed execve without events: C130_execve_refuted). C136_text_partial: texts as far as C132. The output is looked at between two stops, when strace.py waits or has ended. C136_cut_partial: the lines of calls that have not ended; C136_count_partial: the number of lines at any moment, without signals.",
 "C137": "C137_name and C137_line: for each of the five tables, exactly which calls of the header (linux 6.8) are shown under their name, under another name, and by number; C137_line needs nothing of the memory. C137_open_partial carries this to whole runs in an open world (as C136; a replaced socketcall is C132_socket_partial). Refuted in full: number 283 of x86-64 and 54 numbers of i386 have other names, numbers newer than the tables have none (C137_refuted), and a program of 32 bits on x86-64 is shown with the names and registers of 64 bits: write is shown as stat (C137_compat_refuted).",
 "C138": "C138_free_partial: for all natures of processes (M), all kernels whose answers in this run agree with M and with what ptrace(2) promises (Kept). C138_ends_partial: if alone they go on at most a bounded number of times and start processes from a finite list only, strace.py ends and all are over (the kernel must not be silent for ever, Wakes). Missing: signal 5 sent to a process (strace.py takes it away: C138_trap_refuted), and as in C135 processes that vanish while they are stopped. The stop by attach and the trap after execve exist for a tracer only; they are not counted as signals. Not covered: how long processes take.",
 "C139": "The library optparse of Python is part of the model (trusted text, not repository code). Refuted: without `--` the words of the program that look like switches are taken by strace.py or end it (C139_program_refuted); `--pid 0` starts a program, even if there is none (C139_zero_refuted); a number with a zero in front is octal (C139_octal_refuted); an empty name for `--output` is no name (C139_output_refuted). The partial theorems are for numbers without a zero in front, a process other than 0 and a name that is not empty; C139_options, C139_only, C139_ends and C139_stops hold without.",
 "C140": "C140_again_refuted: a process that the kernel refuses to let go stays in the debugger, but its object says it is not attached, so that a later detach asks for nothing.",
 "C141": "C141_strace_partial (the whole run: where the lines go, exit status, first line, blocks of the stops, which calls are shown and how their lines begin and, with a known prototype, all of them), C141_options_partial (the options are used as they are meant), C141_early (lines that end strace.py at once make no request). Partial: as C136 (promises of the kernel hold for the run), C137 (five CPUs, a replaced socketcall is not named) and C139 (no --pid 0, no empty --output, decimal numbers); numbers are not negative and the file of --output can be opened.",
 "C142": "C142_gdb_partial and C142_leave_partial: as C133 and C139 (one process, no fork/clone options, kernel refuses nothing), and no Control-C while gdb.py ends. C142_spares holds for every kernel and input. False for the children of a process that was there before: with --fork -p they are killed when the user leaves (C142_children_refuted). The children of a fork count as created by the debugger because addProcess gets is_attached=True.",
 "C143": "Proved for every kernel. C143_gdb assumes that the expression parser given to the prompt raises no process event (NoEvent), as parseInteger does. A negative number after -p is taken as 0 by the model. The number 0 counts as asked for only if the user gave it.",
 "C144": "C144_library, C144_strace: for every kernel. C144_quit_partial: after quit the end of each created process was told, if told by ESRCH it may still be alive. C144_step_refuted: gdb.py prog, stepi, interrupt, quit: singleStep does not clear is_stopped, so terminate uses PTRACE_CONT, ESRCH means 'not stopped', and a living process is taken for ended and left. C144_gdb_partial: gdb.py, whatever is typed: a process is taken for ended only if its end was told or a request for it was refused with ESRCH; C144_gdb_refuted: cont asks a running second process to continue, is refused, and gdb.py forgets the process without detaching it. Processes with the number 0 are left out.",
 "C145": "C145_strace_partial covers strace.py from its command line to its end, for all requests but PTRACE_DETACH, provided the kernel answers a wait for a process with news of that process and the user does not interrupt the wait for the first stop of a process. False without these: C145_first_refuted (interrupted before the first stop, strace.py asks for options, is refused, takes the refusal of PTRACE_CONT for the end, and ends with status 0 while the program was neither killed nor detached), C145_detach_refuted (interrupted while the process is running, quit asks to detach a running process and ends with the exception), C145_gdb_refuted (singleStep leaves is_stopped set, so that gdb.py continues a running process), C145_cont_refuted (with two processes, cont asks the one that is still running). C145_gdb_partial covers gdb.py from its command line to its end, whatever is typed, while it traces one process at a time, without stepi and without an interrupt during a call of the kernel.",
 "C146": "C146_flag_partial: if is_stopped is set, the process is stopped, after any calls of methods of registered processes except singleStep; C146_signal_partial: if it is stopped by a signal, is_stopped is set; C146_quit_partial and C146_terminate_partial: their requests (but PTRACE_DETACH) are made to stopped processes. False in general: C146_step_refuted (singleStep leaves the attribute set), C146_first_refuted (a new process counts as stopped before its first stop is told), C146_event_refuted (a process stopped for an event does not count as stopped).",
 "C147": "`C147_library_partial`: every call, in any state that calls lead to; the exceptions are a KeyError if the kernel tells of a new process with the number of a registered one, a KeyError if the caller adds a registered process, an IndexError if it waits for any process and there is none. `C147_strace_run_partial` and `C147_strace_partial`: strace.py, where only the first of them can happen. Refuted: `C147_refuted` (the number of a thread that called execve is given to a new process: KeyError, exit code 1), `C147_add_refuted` (for every kernel and state), `C147_gdb_refuted` (in gdb.py, `attach` with the number of the traced process ends the session and kills the process); the IndexError is `C35_refuted`. `C147_gdb_run_partial`: any session of gdb.py; besides the first exception, a KeyError only if an `attach` was typed and its argument is the number of a registered process, and an exception of the evaluation of an argument other than ValueError (a division by zero: `C96_zero_refuted`). `C147_gdb_main_partial`: what leaves `main`.",
 "C148": "C148_strace, C148_gdb (registered processes and the right signals) and C148_strace_ended (never after the end was told) hold for the whole programs without any condition, C148_library_ended for all sequences of method calls, also for objects that are not registered, but for the method kill of an ended process. C148_gdb_ended_partial: the same for all signals of gdb.py but SIGINT; false for SIGINT: C148_ended_refuted (a process whose addProcess failed is never unregistered; Control-C sends SIGINT to its number after its end). C148_library_partial: only registered processes, if kill and terminate are called for registered processes. False without that: C148_detached_refuted (detach leaves running set; a program stopped because of execve, which leaves is_stopped unset, is detached, and terminate then sends SIGKILL to its number). C148_gdb_sigint_partial: gdb.py sends no signal at all to such a process, SIGINT included, if the kernel answers for the process that is asked for and tells of events of a process (fork, clone, exec) only after it told that the process stopped by a signal (PlainLog), with fuel for two waits at least; calls may fail and waits be interrupted at any time. Missing for SIGINT: an event as the first news of a process and odd replies, by which addProcess fails; there it is false.",
 "C149": "C149_library, C149_strace, C149_gdb: without any condition. The converse is C144. The object may stay registered all the same (C148_ended_refuted and the example with puzzled). Processes with the number 0 are left out."
}