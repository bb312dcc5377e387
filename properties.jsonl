{"id": "C01", "title": "Integer width conversions are exact two's complement", "statement": "int2uint32/64(v) is the unique value in [0,2^n) congruent to v modulo 2^n, uint2int32/64(v) is the unique value in [-2^(n-1),2^(n-1)) congruent to v modulo 2^n; therefore the two are inverse to each other on their ranges, and long2ulong/ulong2long use n = word size.", "quantifier": "every Python integer v of any size and sign, n = 32 and 64", "why_tests_cant": "the domain is unbounded; the doctests sample five values", "anchors": ["ptrace/ctypes_tools.py:int2uint64,uint2int64,int2uint32,uint2int32,ulong2long,long2ulong,truncateWord"]}
{"id": "C02", "title": "Word/byte-string conversion is a bijection", "statement": "bytes2word(word2bytes(w)) = w for every w that fits a CPU word, word2bytes(bytes2word(b)) = b for every b of word length, word2bytes raises for any other integer and bytes2word for any other length; byte i of the string is the byte the CPU would store at offset i.", "quantifier": "every word, every byte string, word size 4 or 8, little and big endian", "why_tests_cant": "2^64 words and both byte orders, a test runs on one host", "anchors": ["ptrace/ctypes_tools.py:word2bytes,bytes2word"]}
{"id": "C03", "title": "Formatted addresses are lossless", "statement": "formatAddress(a) is NULL exactly when a = 0; otherwise reading the text back as a hexadecimal literal gives a; two addresses never format alike; every address that fits a word prints with the same width.", "quantifier": "every non-negative address, both word sizes", "why_tests_cant": "injectivity over all addresses is a universally quantified statement over pairs", "anchors": ["ptrace/ctypes_tools.py:formatAddress,formatUintHex32,formatUintHex64,formatWordHex,formatAddressRange"]}
{"id": "C04", "title": "Network order fields are shown in host order", "statement": "The port and IPv4 address shown for a sockaddr_in in tracee memory are those of its bytes in network order: port = 256*b0+b1 and the dotted quad lists the four address bytes in memory order.", "quantifier": "all byte contents, both host byte orders", "why_tests_cant": "a test host has a single byte order; the code's swap is unconditional", "anchors": ["ptrace/ctypes_tools.py:ntoh_ushort,ntoh_uint", "ptrace/syscall/socketcall_struct.py:ip_int2str,in_addr", "ptrace/syscall/socketcall.py:formatSockaddrInStruct"]}
{"id": "C05", "title": "Word-by-word memory reads are exact", "statement": "When readBytes uses the PTRACE_PEEKTEXT path and returns, it returns exactly the size bytes at [address,address+size), including words equal to -1; it succeeds whenever every word touching the range is readable and no request fails; it raises PtraceError otherwise; it never writes the tracee.", "quantifier": "every address (aligned or not), size, memory content, mapping, byte order, word size, and failing request number", "why_tests_cant": "alignment x size x content x fault position is unbounded", "anchors": ["ptrace/debugger/process.py:PtraceProcess._readBytes,readWord", "ptrace/binding/func.py:_peek,ptrace"]}
{"id": "C06", "title": "Memory writes change exactly the requested bytes", "statement": "If writeBytes(address, data) returns, then memory holds data at [address, address+len(data)) and every other byte of the tracee is unchanged.", "quantifier": "every address, data, memory content, mapping, byte order, word size, /proc/pid/mem behaviour", "why_tests_cant": "frame condition over the entire address space for all alignments", "anchors": ["ptrace/debugger/process.py:PtraceProcess.writeBytes,writeWord,readBytes"]}
{"id": "C07", "title": "Write then read returns the data", "statement": "After a successful writeBytes(a, data) a readBytes(a, len(data)) that returns full length returns data; writing back bytes that were just read leaves memory as it was.", "quantifier": "every address, data and state", "why_tests_cant": "all alignments and sizes", "anchors": ["ptrace/debugger/process.py:PtraceProcess.writeBytes,readBytes,_readBytes"]}
{"id": "C08", "title": "A failing write leaves only a prefix behind", "statement": "If writeBytes raises at any ptrace request (the tracee dies, a page is not writable, a short /proc read), memory is the old memory with some prefix of data written: no byte outside the target range ever changes and no later byte is written before an earlier one.", "quantifier": "every failure point of every write", "why_tests_cant": "crash point enumeration for every size and alignment", "anchors": ["ptrace/debugger/process.py:PtraceProcess.writeBytes"]}
{"id": "C09", "title": "Reads through /proc/pid/mem never invent bytes", "statement": "readBytes through /proc/pid/mem returns a prefix of the true memory content of the range, or raises; when /proc cannot be opened or gives nothing for a non-empty request the peek fallback is used for this and every later read and the caller sees the same bytes; a result of full length is exactly the range.", "quantifier": "every /proc reply (short reads, errors, empty), every address and size", "why_tests_cant": "kernel replies cannot be enumerated by a test", "anchors": ["ptrace/debugger/process.py:PtraceProcess.readBytes"]}
{"id": "C10", "title": "readBytes returns as many bytes as requested or raises", "statement": "A readBytes(address, size) that returns has length size.", "quantifier": "every /proc reply", "why_tests_cant": "short reads only occur at mapping ends; the code has no length check", "anchors": ["ptrace/debugger/process.py:PtraceProcess.readBytes,readStruct,readArray"]}
{"id": "C11", "title": "C strings: an untruncated result is the whole string", "statement": "readCString(a, max) that returns (s, False) returns exactly the bytes from a up to, not including, the first NUL; any returned s is a prefix of that string of length at most max.", "quantifier": "every memory content, address, max_size >= 0 and chunk_length > 0", "why_tests_cant": "string length versus chunk and limit boundaries are unbounded", "anchors": ["ptrace/debugger/process.py:PtraceProcess.readCString"]}
{"id": "C12", "title": "C strings: the truncated flag is set only when something was cut", "statement": "readCString(a, max) returns truncated=True only if the string is longer than the returned text.", "quantifier": "every memory content, address and max_size", "why_tests_cant": "the flag depends on chunk arithmetic for every length", "anchors": ["ptrace/debugger/process.py:PtraceProcess.readCString"]}
{"id": "C13", "title": "C strings: reading always terminates with a bounded number of reads", "statement": "With chunk_length > 0 and max_size >= 0, readCString makes at most max_size/chunk_length + 1 reads and never reads past the first chunk containing a NUL.", "quantifier": "every memory content and limit", "why_tests_cant": "termination for all inputs", "anchors": ["ptrace/debugger/process.py:PtraceProcess.readCString"]}
{"id": "C14", "title": "Memory search finds exactly the non-overlapping occurrences", "statement": "When the mapping is readable, search(b) with non-empty b yields, in increasing order, exactly the positions a left-to-right non-overlapping scan of the whole mapping finds, independent of the 64 KiB chunking (in particular matches across chunk borders are found), each inside the mapping, and it terminates; every occurrence overlaps a reported one.", "quantifier": "every mapping content, size and non-empty pattern", "why_tests_cant": "matches straddling chunk boundaries for all sizes", "anchors": ["ptrace/debugger/memory_mapping.py:MemoryMapping.search"]}
{"id": "C15", "title": "Memory search terminates for every pattern", "statement": "search(b) makes finitely many reads for every byte string b.", "quantifier": "every pattern including the empty one", "why_tests_cant": "termination", "anchors": ["ptrace/debugger/memory_mapping.py:MemoryMapping.search"]}
{"id": "C16", "title": "Full registers: read after write, and nothing else changes", "statement": "After setreg(r, v) for a full register r, getreg(r) is v reduced to the register width and every other full register keeps its value; an unknown name raises ProcessError from getreg and setreg and leaves all registers untouched.", "quantifier": "every architecture table, register, value (any integer), register file", "why_tests_cant": "all values of all registers", "anchors": ["ptrace/debugger/process.py:PtraceProcess.getreg,setreg,getregs,setregs", "ptrace/binding/cpu.py:CPU_SUB_REGISTERS", "ptrace/binding/linux_struct.py:user_regs_struct"]}
{"id": "C17", "title": "Sub-registers read the architectural bits", "statement": "getreg of al/ah/ax/eax/flags... returns the bits the CPU manual assigns to that sub-register of its full register.", "quantifier": "every sub-register of the i386 and x86_64 tables, every register file", "why_tests_cant": "needs all register values; table entries are data nobody tests", "anchors": ["ptrace/debugger/process.py:PtraceProcess.getreg", "ptrace/binding/cpu.py:CPU_SUB_REGISTERS"]}
{"id": "C18", "title": "Sub-registers: a write changes only the sub-register", "statement": "setreg(s, v) on a sub-register s makes getreg(s) = v mod its width and leaves all other bits of all registers unchanged.", "quantifier": "every sub-register, value and register file", "why_tests_cant": "all values", "anchors": ["ptrace/debugger/process.py:PtraceProcess.setreg", "ptrace/binding/cpu.py:CPU_SUB_REGISTERS"]}
{"id": "C19", "title": "Removing a breakpoint restores the code bytes", "statement": "createBreakpoint followed by desinstall leaves tracee memory as it was; while installed, memory differs only in [address, address+size), which holds trap bytes, and findBreakpoint answers for exactly those addresses.", "quantifier": "every address, size, memory content, architecture", "why_tests_cant": "all contents/alignment", "anchors": ["ptrace/debugger/breakpoint.py:Breakpoint", "ptrace/debugger/process.py:PtraceProcess.createBreakpoint,findBreakpoint,removeBreakpoint"]}
{"id": "C20", "title": "Any history of breakpoints leaves the original code visible after removal", "statement": "After any sequence of successful createBreakpoint/desinstall calls in any order, memory equals the original program with trap bytes exactly at the breakpoints currently listed; when none is listed memory is the original.", "quantifier": "every history of operations, in any interleaving", "why_tests_cant": "histories are unbounded", "anchors": ["ptrace/debugger/breakpoint.py:Breakpoint", "ptrace/debugger/process.py:PtraceProcess.createBreakpoint,removeBreakpoint"]}
{"id": "C21", "title": "desinstall is idempotent and safe on dead processes", "statement": "A second desinstall of the same breakpoint has no effect at all; on a process that is no longer running it writes no memory; with set_ip the instruction pointer becomes the breakpoint address.", "quantifier": "every state", "why_tests_cant": "all histories", "anchors": ["ptrace/debugger/breakpoint.py:Breakpoint.desinstall"]}
{"id": "C22", "title": "Wait statuses are decoded faithfully", "statement": "For every status the kernel can build (exit code, fatal signal with or without core, stop signal, ptrace event) the event raised carries the same kind, code, signal or event; each integer status is classified into exactly one kind or rejected as unknown.", "quantifier": "every exit code, signal, event and every integer status", "why_tests_cant": "2^32 statuses; classification order matters", "anchors": ["ptrace/debugger/process.py:PtraceProcess.processStatus", "ptrace/binding/func.py:WPTRACEEVENT", "ptrace/debugger/process_event.py"]}
{"id": "C23", "title": "Status text agrees with the status", "statement": "formatProcessStatus names the signal or exit code encoded in the status, 'exited normally' exactly for exit code 0, and appends '(core dumped)' exactly when the core bit of a fatal signal is set.", "quantifier": "every kernel-built status", "why_tests_cant": "all statuses", "anchors": ["ptrace/process_tools.py:formatProcessStatus"]}
{"id": "C24", "title": "A SIGCHLD report describes how the child ended", "statement": "The text shown for a SIGCHLD stop states the child's exit code when it exited and the signal when it was killed.", "quantifier": "every siginfo the kernel can produce for SIGCHLD", "why_tests_cant": "needs all si_code/si_status values", "anchors": ["ptrace/debugger/ptrace_signal.py:ProcessSignal.childExit", "ptrace/debugger/signal_reason.py:ChildExit"]}
{"id": "C25", "title": "The process registry is always consistent", "statement": "After any sequence of debugger and process calls, whatever the kernel replies and wherever exceptions strike: iterating the debugger, len(debugger) and debugger[pid] describe the same set of processes, each pid once, and each entry is keyed by its own pid.", "quantifier": "every history of API calls, every kernel reply sequence, every exception point", "why_tests_cant": "interleavings of kernel events with API calls are unbounded", "anchors": ["ptrace/debugger/debugger.py:PtraceDebugger.addProcess,deleteProcess,__getitem__,__iter__,__len__", "ptrace/debugger/process.py:PtraceProcess.detach,_notRunning"]}
{"id": "C26", "title": "Adding a registered pid is refused without side effects", "statement": "addProcess(pid) for a pid already registered raises KeyError, makes no system call and changes nothing.", "quantifier": "every state", "why_tests_cant": "all states", "anchors": ["ptrace/debugger/debugger.py:PtraceDebugger.addProcess"]}
{"id": "C27", "title": "A failing addProcess leaves no registered process behind", "statement": "If addProcess raises, the pid is not registered.", "quantifier": "every kernel reply", "why_tests_cant": "needs kernel failures at each step", "anchors": ["ptrace/debugger/debugger.py:PtraceDebugger.addProcess", "ptrace/debugger/process.py:PtraceProcess.detach"]}
{"id": "C28", "title": "Only processes created by the debugger are killed on quit", "statement": "quit() and terminate() never send SIGKILL to a process that was attached from outside, and a quit() that returns leaves no registered process; processes are handled in reverse order of registration.", "quantifier": "every state and every kernel reply", "why_tests_cant": "all kernel behaviours", "anchors": ["ptrace/debugger/debugger.py:PtraceDebugger.quit", "ptrace/debugger/process.py:PtraceProcess.terminate,detach"]}
{"id": "C29", "title": "Each process is detached at most once", "statement": "For every process object the library issues PTRACE_DETACH at most once, and never after it has seen the process end.", "quantifier": "every history and kernel reply", "why_tests_cant": "all histories", "anchors": ["ptrace/debugger/process.py:PtraceProcess.detach,_notRunning"]}
{"id": "C30", "title": "SIGTRAP is never delivered to the tracee", "statement": "No PTRACE_CONT or PTRACE_SYSCALL request issued by the library carries SIGTRAP, whatever signal the caller asks to deliver; any other signal is passed unchanged.", "quantifier": "every history and signal number", "why_tests_cant": "all call paths", "anchors": ["ptrace/debugger/process.py:PtraceProcess.filterSignal,cont,syscall"]}
{"id": "C31", "title": "Waiting only consumes events of registered processes", "statement": "Every waitpid issued while waiting names a pid that is registered at that moment (given pid 0 is never used), with __WALL exactly for threads; events are only produced for registered processes.", "quantifier": "every history and kernel reply", "why_tests_cant": "all histories", "anchors": ["ptrace/debugger/debugger.py:PtraceDebugger._waitpid,_wait_event_pid,_wait_event"]}
{"id": "C32", "title": "waitSignals returns only what was asked for", "statement": "waitSignals(*signals, pid) returns only a signal event whose number is in signals (any if empty), for the pid if given; any other event is raised to the caller; every wait status obtained from the kernel is surfaced as exactly one event or error, none dropped.", "quantifier": "every event sequence", "why_tests_cant": "all event orders", "anchors": ["ptrace/debugger/debugger.py:PtraceDebugger.waitSignals,waitSyscall,waitProcessEvent"]}
{"id": "C33", "title": "New process events carry the right parent and kind", "statement": "When a tracee forks, vforks or clones under tracing, the raised event's process is registered, its pid is the one reported by the kernel, its parent is the forking process, it is a thread exactly for clone, and the debugger's ptrace options are set on it.", "quantifier": "every kernel reply", "why_tests_cant": "all interleavings", "anchors": ["ptrace/debugger/process.py:PtraceProcess.ptraceEvent", "ptrace/debugger/debugger.py:PtraceDebugger.addProcess"]}
{"id": "C34", "title": "After an exit event the process is gone", "statement": "When an exit event is delivered the process is marked not running and not attached, it is no longer registered, and the library issued no detach for it.", "quantifier": "every state and kernel reply", "why_tests_cant": "all states", "anchors": ["ptrace/debugger/process.py:PtraceProcess.processExited,processKilled,processTerminated,_notRunning"]}
{"id": "C35", "title": "waitProcessEvent never fails for lack of processes", "statement": "waitProcessEvent() on a debugger with no process, blocking or not, returns None or blocks but does not raise an unrelated error.", "quantifier": "debuggers with no process", "why_tests_cant": "edge state", "anchors": ["ptrace/debugger/debugger.py:PtraceDebugger._wait_event"]}
{"id": "C36", "title": "terminate returns True only when the process is gone", "statement": "terminate() returning True means the process was not created by the debugger, or it is no longer running and no longer registered; only one SIGKILL is sent.", "quantifier": "every state and kernel reply", "why_tests_cant": "all event orders while waiting for the exit", "anchors": ["ptrace/debugger/process.py:PtraceProcess.terminate,waitExit"]}
{"id": "C37", "title": "Trace options only accumulate and reach every process", "statement": "traceFork/traceExec/traceClone/enableSysgood only add option bits, and every addProcess that returns has set exactly the options accumulated so far on the new process.", "quantifier": "every order of calls", "why_tests_cant": "all orders", "anchors": ["ptrace/debugger/debugger.py:PtraceDebugger.traceFork,traceExec,traceClone,enableSysgood,addProcess"]}
{"id": "C38", "title": "Syscall stops alternate between entry and exit", "statement": "For each process, successive syscall stops are reported alternately as entry and exit, starting with entry; the exit report is the same call object as the entry (its name and arguments from entry, its result from exit); ignored calls are ignored at both.", "quantifier": "every sequence of syscall stops and registers", "why_tests_cant": "unbounded sequences", "anchors": ["ptrace/debugger/syscall_state.py:SyscallState", "ptrace/syscall/ptrace_syscall.py:PtraceSyscall"]}
{"id": "C39", "title": "strace resumes every stopped process exactly once per event", "statement": "In the strace loop each event leads to exactly one PTRACE_SYSCALL for each process it left stopped (the process itself; child and parent for a new process event) and none for a process that has exited; a received signal is passed on to the same process unchanged except SIGTRAP.", "quantifier": "every event sequence", "why_tests_cant": "all event orders", "anchors": ["strace.py:SyscallTracer.syscallTrace,syscall,newProcess,processExecution,processExited,prepareProcess"]}
{"id": "C40", "title": "strace exits with the tracee's status", "statement": "When the traced program ends, strace's exit code is the program's exit code if it exited, and 128+signal if it was killed by a signal.", "quantifier": "every run", "why_tests_cant": "all event orders", "anchors": ["strace.py:SyscallTracer.syscallTrace", "ptrace/tools.py:signal_to_exitcode"]}
{"id": "C41", "title": "strace filters show exactly the selected calls", "statement": "A call is shown iff (no selection is given or its name is among the selected names, filename calls, or socket calls) and the ignore regex does not match its name.", "quantifier": "every option combination and syscall name", "why_tests_cant": "all combinations", "anchors": ["strace.py:SyscallTracer.parseOptions,ignoreSyscall"]}
{"id": "C42", "title": "strace --syscalls rejects unknown names", "statement": "If any name given to --syscalls is not a system call, strace exits with an error.", "quantifier": "every list of names", "why_tests_cant": "all lists", "anchors": ["strace.py:SyscallTracer.parseOptions"]}
{"id": "C43", "title": "gdb: an intercepted signal is delivered at most once and to its process", "statement": "A signal that interrupted a process is passed to that same process at its next cont, unless another signal is given, and never again afterwards.", "quantifier": "every sequence of cont/signal commands and stops", "why_tests_cant": "all histories", "anchors": ["gdb.py:Gdb._continueProcess,cont,signal,processSignal"]}
{"id": "C44", "title": "gdb: switch visits every process", "statement": "Repeating the switch command n times on n processes visits each exactly once and returns to the start; it selects a registered process.", "quantifier": "every process list", "why_tests_cant": "all lists", "anchors": ["gdb.py:Gdb.switch,switchProcess"]}
{"id": "C45", "title": "gdb: hexdump covers the requested range exactly once", "statement": "hexdump start end prints each byte of [start, min(end, start+20*width)) exactly once in order, or reports it inside a printed unreadable range covering only unreadable rows; a range is never silently skipped.", "quantifier": "every range, terminal width and mapping", "why_tests_cant": "all ranges", "anchors": ["gdb.py:Gdb.hexdump"]}
{"id": "C46", "title": "gdb: command lines run in order and stop at the first failure", "statement": "For a line 'c1; c2; ...' the commands run in order, none after the first that fails or raises, and an empty line repeats the previous line iff all of its commands succeeded.", "quantifier": "every line and command outcome", "why_tests_cant": "all outcomes", "anchors": ["gdb.py:Gdb.mainLoop,execute"]}
{"id": "C47", "title": "gdb expressions: only arithmetic reaches eval", "statement": "Whatever text the user types, the text passed to eval consists only of digits and ()<>+*/&- ; anything else raises ValueError; so no name, attribute or call by name can be evaluated.", "quantifier": "every input text and register values", "why_tests_cant": "security property over all strings", "anchors": ["gdb.py:Gdb.parseInteger", "ptrace/debugger/parse_expr.py:parseExpression"]}
{"id": "C48", "title": "gdb expressions: values are machine words with the expected meaning", "statement": "Decimal and 0x literals evaluate to their value, $reg to the register value, all reduced modulo the word size; the result of parseInteger always fits a CPU word.", "quantifier": "every literal and register value", "why_tests_cant": "all values", "anchors": ["gdb.py:Gdb.parseInteger"]}
{"id": "C49", "title": "gdb: signal names and numbers round-trip", "statement": "parseSignum accepts the name printed for each known signal, with or without the SIG prefix, and returns its number; signalName never fails and different known signals have different names.", "quantifier": "every signal table", "why_tests_cant": "platform tables vary", "anchors": ["gdb.py:Gdb.parseSignum", "ptrace/signames.py:getSignalNames,signalName", "ptrace/tools.py:inverseDict"]}
{"id": "C50", "title": "/proc/pid/stat is parsed correctly for any program name", "statement": "For every stat line the kernel can print, including program names with spaces, parentheses and newlines, pid, program, state, ppid ... starttime are the printed ones.", "quantifier": "every program name and field values", "why_tests_cant": "names are chosen by the tracee", "anchors": ["ptrace/linux_proc.py:ProcessState"]}
{"id": "C51", "title": "/proc/pid/maps lines are parsed correctly", "statement": "For every maps line printed by the kernel with the accepted device width and a path without leading/trailing whitespace, all fields are read back exactly; a line that does not match raises ProcessError instead of being skipped.", "quantifier": "every field value and path name", "why_tests_cant": "path names are arbitrary", "anchors": ["ptrace/debugger/memory_mapping.py:readProcessMappings,PROC_MAP_REGEX"]}
{"id": "C52", "title": "NUL-separated /proc files are split exactly", "statement": "readProcessProcList returns exactly the list of strings whose NUL-terminated concatenation is the file; an empty file is an empty list.", "quantifier": "every list of NUL-free strings", "why_tests_cant": "all lists", "anchors": ["ptrace/linux_proc.py:readProcessProcList,readProcessCmdline"]}
{"id": "C53", "title": "Environment display respects its budget", "statement": "The environment shown by dumpProcessInfo with a length limit keeps a subsequence in order with total length at most the limit, and shown plus skipped equals the number of variables.", "quantifier": "every environment and limit", "why_tests_cant": "all lists", "anchors": ["ptrace/process_tools.py:dumpProcessInfo"]}
{"id": "C54", "title": "Search by program name finds exactly the matching processes", "statement": "searchProcessesByName(n) yields exactly the pids whose first command word is n or ends with '/'+n, in listing order; searchProcessByName returns the first or raises ProcError.", "quantifier": "every process table", "why_tests_cant": "all tables", "anchors": ["ptrace/linux_proc.py:searchProcessesByName,searchProcessByName,readProcesses"]}
{"id": "C55", "title": "Bit mask display is lossless", "statement": "readBits(v, table) with pairwise disjoint masks lists exactly the table names whose mask intersects v and then the remaining bits as a number; for single-bit tables v is the sum of the listed masks and the rest, so different values never display alike.", "quantifier": "every value and table", "why_tests_cant": "all values", "anchors": ["ptrace/tools.py:readBits,formatBits", "ptrace/syscall/posix_arg.py"]}
{"id": "C56", "title": "open/clone flags display determines the flags", "statement": "The text shown for open flags, open mode, mmap prot, access mode and clone flags determines the argument value, and every name shown is really set in the value.", "quantifier": "every flag value", "why_tests_cant": "2^64 values", "anchors": ["ptrace/syscall/posix_arg.py:formatOpenFlags,formatOpenMode,formatCloneFlags,formatMmapProt,formatAccessMode"]}
{"id": "C57", "title": "fd_set and sigset display lists exactly the set bits", "statement": "For select and rt_sigprocmask, the numbers (signals) shown are exactly the indexes of the bits set in tracee memory, in increasing order, restricted to nfds.", "quantifier": "every memory content and size", "why_tests_cant": "all contents", "anchors": ["ptrace/syscall/syscall_argument.py:iterBits,SyscallArgument.readBits,formatValuePointer"]}
{"id": "C58", "title": "Syscall results are shown faithfully", "statement": "The result text of a syscall shows the signed value of the result register; an errno name and message are appended exactly for values -e with e a known errno; the signed result is recoverable from the text.", "quantifier": "every register value", "why_tests_cant": "2^64 values", "anchors": ["ptrace/syscall/ptrace_syscall.py:PtraceSyscall.exit"]}
{"id": "C59", "title": "ptrace errors are neither invented nor lost", "statement": "ptrace() raises PtraceError exactly when the kernel reported an error; peeking a word equal to -1 returns that word; the exception's errno is the kernel's errno.", "quantifier": "every kernel reply and previous errno, both bindings", "why_tests_cant": "errno history", "anchors": ["ptrace/binding/func.py:ptrace,_peek", "cptrace/cptrace.c:cpython_cptrace"]}
{"id": "C60", "title": "Clamping and log level changes stay in range", "statement": "minmax(lo, v, hi) is in [lo,hi], equals v when v is inside, for lo<=hi; changeLogLevel never leaves DEBUG..ERROR.", "quantifier": "all integers", "why_tests_cant": "all integers", "anchors": ["ptrace/tools.py:minmax", "ptrace/logging_tools.py:changeLogLevel"]}
{"id": "C61", "title": "locateProgram resolves like the shell", "statement": "locateProgram returns an absolute path unchanged, resolves a path with a directory part against the working directory, and otherwise returns the first executable match in PATH order, or the name unchanged if there is none.", "quantifier": "every PATH, program and file system predicate", "why_tests_cant": "all environments", "anchors": ["ptrace/tools.py:locateProgram"]}
{"id": "C62", "title": "createChild closes exactly the other descriptors", "statement": "In the child, just before exec, the open descriptors are those in {0,1,2}, the error pipe and pass_fds (and everything if close_fds is false and pass_fds empty); after exec the error pipe is closed.", "quantifier": "every descriptor table and pass_fds", "why_tests_cant": "all descriptor tables", "anchors": ["ptrace/debugger/child.py:createChild,_createChild,_set_cloexec_flag"]}
{"id": "C63", "title": "createChild reports exec failures to the parent", "statement": "createChild returns a pid only if exec succeeded in the child, and otherwise raises the child's error after reaping it.", "quantifier": "every failure point in the child", "why_tests_cant": "fork/exec failure points", "anchors": ["ptrace/debugger/child.py:createChild,_createParent,_createChild,_execChild"]}
{"id": "C64", "title": "Interrupted system calls are retried", "statement": "The EINTR-safe helpers return the first non-EINTR outcome of the call, whatever number of interruptions precede it, and never swallow another error.", "quantifier": "every number of interruptions", "why_tests_cant": "unbounded", "anchors": ["ptrace/debugger/child.py:_waitpid_no_intr,_read_no_intr,_write_no_intr"]}
{"id": "C65", "title": "Backtraces follow the frame chain and are bounded", "statement": "getBacktrace returns the frames of the saved frame-pointer chain from the current one, in order, at most max_depth, truncated exactly when the chain continues past max_depth; at most max_args arguments per frame; it always terminates, even on cyclic chains.", "quantifier": "every stack content", "why_tests_cant": "stack contents are attacker controlled", "anchors": ["ptrace/debugger/backtrace.py:getBacktrace,getBacktraceFrame"]}
{"id": "C66", "title": "Syscall tables are well-formed", "statement": "In every architecture table each number has one name; every prototype has at most as many arguments as registers are read, so no declared argument is dropped; preformatted indexes exist; every socketcall has a prototype; every socket syscall name is in the table.", "quantifier": "every table entry of every architecture", "why_tests_cant": "finite but large; nobody tests all", "anchors": ["ptrace/syscall/prototypes.py", "ptrace/syscall/linux/*.py", "ptrace/syscall/ptrace_syscall.py:readArguments,PREFORMAT_ARGUMENTS"]}
{"id": "C67", "title": "Function calls are formatted with all significant arguments", "statement": "format() lists the arguments in order, comma separated, dropping only trailing empty ones.", "quantifier": "every argument list", "why_tests_cant": "all lists", "anchors": ["ptrace/func_call.py:FunctionCall.format"]}
{"id": "C68", "title": "String arrays are read with a bound", "statement": "readCStringArray (execve argv/envp) shows the strings of the NULL-terminated pointer array in order, at most max_array_count of them followed by an ellipsis note when more, and terminates on unterminated arrays.", "quantifier": "every pointer array", "why_tests_cant": "all arrays", "anchors": ["ptrace/syscall/syscall_argument.py:SyscallArgument.readCStringArray"]}
{"id": "C69", "title": "Signal fault classification", "statement": "For a memory fault with siginfo: a fault at the instruction pointer is reported as an instruction error; otherwise a stack pointer outside the stack mapping as stack overflow; otherwise some memory-access reason; exactly one reason results.", "quantifier": "every fault state", "why_tests_cant": "all states", "anchors": ["ptrace/debugger/ptrace_signal.py:ProcessSignal.memoryFault,_analyze"]}
{"id": "C70", "title": "A blocking wait never returns None", "statement": "waitProcessEvent(blocking=True) never returns None: it returns an event, raises, or keeps waiting; None is only returned for a non blocking wait, after every registered (or the wanted) process was polled and reported nothing.", "quantifier": "every reachable state, every kernel reply sequence", "why_tests_cant": "depends on which of arbitrarily many processes answers to which of arbitrarily many polls", "anchors": ["ptrace/debugger/debugger.py:_wait_event", "ptrace/debugger/debugger.py:_wait_event_pid"]}
{"id": "C71", "title": "System call names agree with the kernel", "statement": "In the x86_64, i386, aarch64, riscv32 and riscv64 tables a number has the name that the kernel headers give to it, every number of the headers up to the last one supported is known (x86_64, aarch64, riscv64), and the name shown for a call is the one of the table, or syscall<number> for an unknown number.", "quantifier": "every entry of the five tables and of the headers; every register content", "why_tests_cant": "each call would have to be made by a traced program on each architecture", "anchors": ["ptrace/syscall/linux/*.py", "ptrace/syscall/ptrace_syscall.py:PtraceSyscall.readSyscall"]}
{"id": "C72", "title": "System call registers follow the calling convention", "statement": "On every CPU the number, the result and the first six arguments of a system call are read from the registers of the Linux calling convention; all registers read exist in the register structure, and no register is read for two arguments.", "quantifier": "every supported CPU", "why_tests_cant": "tests run on one CPU", "anchors": ["ptrace/syscall/ptrace_syscall.py:SYSCALL_REGISTER,RETURN_VALUE_REGISTER,readArgumentValues"]}
{"id": "C73", "title": "socketcall is replaced by the call it makes", "statement": "With replace_socketcall, a traced socketcall is shown as the sub-call the kernel performs: its name, and as many consecutive words of the argument array as it takes, with the declared types and names. Without the option, the array is shown in angle brackets as that call.", "quantifier": "every sub-call number, register content and memory content, on i386 and PowerPC", "why_tests_cant": "no 32 bit machine in continuous integration; sub-calls added later are never made", "anchors": ["ptrace/syscall/socketcall.py:setupSocketCall", "ptrace/syscall/ptrace_syscall.py:PtraceSyscall.enter"]}
{"id": "C74", "title": "Arguments are shown as after the call", "statement": "When a call is shown at its exit, arguments that refer to memory show the memory after the call, whether or not the call was also shown when entered; arguments that are lost by the call (execve, select, clone) show what they were before.", "quantifier": "every call, every argument, every memory content before and after", "why_tests_cant": "depends on what the call changes", "anchors": ["ptrace/syscall/ptrace_syscall.py:PtraceSyscall.enter,exit", "ptrace/func_arg.py:FunctionArgument.getText"]}
{"id": "C75", "title": "Direction and size of faulting accesses", "statement": "A memory fault that is neither an instruction error nor a stack overflow is reported as an invalid write exactly if the instruction stores to the faulting address, as an invalid read if it loads from it, with the number of bytes of the operand.", "quantifier": "every mnemonic, operand expression, register content and fault address", "why_tests_cant": "unbounded texts of instructions", "anchors": ["ptrace/debugger/ptrace_signal.py:ProcessSignal.memoryFaultInstr,movsInstr", "ptrace/debugger/ptrace_signal.py:findDerefSize"]}
{"id": "C76", "title": "Mappings shown for a fault", "statement": "The mappings shown for a fault at an address with a size are exactly the mappings of the process that contain a byte of the access; an address is said not to be mapped only if no mapping contains it.", "quantifier": "every address, size and list of mappings", "why_tests_cant": "all addresses and mappings", "anchors": ["ptrace/debugger/signal_reason.py:findMappings", "ptrace/debugger/signal_reason.py:formatAddress"]}
{"id": "C77", "title": "Registers shown for a fault", "statement": "The registers shown for a fault are exactly the registers named as whole words in the operands of the faulting instruction, each with its current value.", "quantifier": "every operand text and register content", "why_tests_cant": "unbounded texts", "anchors": ["ptrace/debugger/signal_reason.py:extractRegisters"]}
{"id": "C78", "title": "Reasons of other signals", "statement": "SIGFPE is reported as a division by zero exactly if the faulting instruction divides by zero; SIGABRT is reported as an abort; every other signal has no reason and does not access the process.", "quantifier": "every signal number and instruction", "why_tests_cant": "all instructions", "anchors": ["ptrace/debugger/ptrace_signal.py:ProcessSignal.mathError,_analyze"]}
{"id": "C79", "title": "The code dump looks through breakpoints", "statement": "`where2 START [STOP]` lists the instructions of the original program, in order and with their original bytes, whatever breakpoints are set, and marks exactly the breakpoints and the current instruction; an error only cuts the listing short; nothing is changed.", "quantifier": "every memory content, decoder, history of breakpoints and kernel reply", "why_tests_cant": "unbounded histories and memory contents", "anchors": ["ptrace/debugger/process.py:PtraceProcess.dumpCode,_dumpCode", "ptrace/disasm.py:disassembleOne"]}
{"id": "C80", "title": "Disassembly lists consecutive instructions of memory", "statement": "`disassemble` returns consecutive instructions from the start address, each with the bytes and text of the instruction in memory at its address, at most as many as asked for; `where` shows them.", "quantifier": "every memory content, decoder, range and kernel reply", "why_tests_cant": "unbounded memory contents", "anchors": ["ptrace/debugger/process.py:PtraceProcess.disassemble,disassembleOne,_dumpCode", "ptrace/disasm.py"]}
{"id": "C81", "title": "Commands break and delete", "statement": "`break ADDRESS` puts a trap over exactly the instruction at the address and changes nothing else, or is refused where a breakpoint is; `delete ADDRESS` removes the breakpoint that covers the address and restores the program's bytes, and says so exactly then.", "quantifier": "every memory content, history of breakpoints, address and kernel reply", "why_tests_cant": "unbounded histories", "anchors": ["gdb.py:Gdb.breakpoint,delete,readInstrSize"]}
{"id": "C82", "title": "A hit breakpoint is removed and its instruction is executed next", "statement": "When a process stops at a breakpoint, the breakpoint is removed, the process's instruction pointer is set to the trap's address and the original code is back; any other SIGTRAP changes nothing.", "quantifier": "every history of breakpoints, register content and set of processes", "why_tests_cant": "unbounded histories, several processes", "anchors": ["gdb.py:Gdb.cont"]}
{"id": "C83", "title": "Step over and until", "statement": "`step` runs the process to the instruction after the current one and `until ADDRESS` to the address; the temporary breakpoint is gone afterwards, also after an exception, and the instruction pointer is where the process stopped.", "quantifier": "every program behaviour between continue and stop, every memory content", "why_tests_cant": "arbitrary program runs", "anchors": ["gdb.py:Gdb.step,until"]}
{"id": "C84", "title": "Displayed strings stand for the bytes of the tracee", "statement": "The text of a string argument is a literal that determines exactly the bytes read (any bytes, quotes, control characters, invalid UTF-8); different bytes have different texts. The bytes are the beginning of the C string in the tracee, and without `...` they are all of it. NULL and unreadable addresses have texts of their own.", "quantifier": "every byte string, every memory content, every set of printable characters", "why_tests_cant": "all byte strings; UTF-8 with surrogates and escapes", "anchors": ["ptrace/syscall/syscall_argument.py:SyscallArgument.readCString"]}
{"id": "C85", "title": "Data written to the first descriptors", "statement": "For `write` to descriptors 0 to 2 the text stands for exactly the first min(count, maximum) bytes of the buffer, followed by `...` exactly when there are more; for other descriptors nothing is read.", "quantifier": "every count, limit and memory content", "why_tests_cant": "all counts and contents, short reads", "anchors": ["ptrace/syscall/syscall_argument.py:SyscallArgument.readString,createText"]}
{"id": "C86", "title": "Structures are shown as the kernel lays them out", "statement": "A pointer to a structure is shown with the name and all fields of the kernel's structure, each read from its place with its size, sign and byte order, independent of the memory of the tracer; an unreadable structure is shown as its address.", "quantifier": "every content of memory, word size and byte order", "why_tests_cant": "all contents; layouts of other machines", "anchors": ["ptrace/func_arg.py:FunctionArgument.readStruct", "ptrace/syscall/linux_struct.py", "ptrace/debugger/process.py:PtraceProcess.readStruct"]}
{"id": "C87", "title": "Socket addresses", "statement": "A socket address is shown by its family with the port, address, path or netlink numbers it holds, and other families by name or number; the text tells different addresses apart.", "quantifier": "every content of memory and length", "why_tests_cant": "all addresses", "anchors": ["ptrace/syscall/socketcall.py:formatSockaddr", "ptrace/syscall/socketcall_struct.py"]}
{"id": "C88", "title": "Names of constants", "statement": "A value shown by a name has that name in the kernel, for the system call and argument it belongs to; types of sockets, directory descriptors and flags are shown by their own formats.", "quantifier": "every system call, argument and value", "why_tests_cant": "all values of registers", "anchors": ["ptrace/syscall/posix_constants.py", "ptrace/syscall/linux_constants.py", "ptrace/syscall/socketcall_constants.py:formatSocketType", "ptrace/syscall/posix_arg.py:formatDirFd"]}
{"id": "C89", "title": "Integers by type, and every argument has a text", "statement": "An integer argument is shown in decimal with the value its C type gives to the register; pointers to integers and pairs with what they point to. No error except an interrupt comes out of making a text.", "quantifier": "every register value, type, system call and behaviour of memory reads", "why_tests_cant": "all register values and failures", "anchors": ["ptrace/syscall/syscall_argument.py:SyscallArgument.createText", "ptrace/func_arg.py:FunctionArgument.getText"]}
{"id": "C90", "title": "Registers through ptrace", "statement": "The attributes of the structure that ptrace_getregs returns are the registers of the tracee, and ptrace_setregs hands over every attribute to the register of that name, with the request the CPU needs; assigning an attribute changes one register.", "quantifier": "every supported CPU, register contents, place of objects and kernel answer", "why_tests_cant": "eight register layouts, seven of them not on the test machine", "anchors": ["ptrace/binding/func.py:ptrace_getregs", "ptrace/binding/func.py:ptrace_setregs", "ptrace/binding/linux_struct.py:user_regs_struct", "ptrace/binding/linux_struct.py:iovec_struct"]}
{"id": "C91", "title": "Signal information", "statement": "The attributes of the structure that ptrace_getsiginfo returns are what the kernel tells about the signal: number, code, fault address, or process, user, status and times of a child.", "quantifier": "every signal, word size, byte order and kernel answer", "why_tests_cant": "layouts of other machines, large user numbers, times", "anchors": ["ptrace/binding/func.py:ptrace_getsiginfo", "ptrace/binding/linux_struct.py:siginfo"]}
{"id": "C92", "title": "Messages of events", "statement": "ptrace_geteventmsg returns the message of the event and writes to no memory but its own object.", "quantifier": "every message, word size and byte order", "why_tests_cant": "messages beyond 2^31, big-endian machines, memory beyond an object", "anchors": ["ptrace/binding/func.py:ptrace_geteventmsg"]}
{"id": "C93", "title": "Requests of the wrappers", "statement": "Every ptrace_ function makes exactly one request, with the number the kernel gives to it and the arguments in the positions the kernel expects; it raises exactly when the kernel refuses. Addresses that are not aligned are refused without a request.", "quantifier": "every process, address, word, signal and kernel answer", "why_tests_cant": "numbers can only be checked against a running kernel", "anchors": ["ptrace/binding/func.py:ptrace_traceme", "ptrace/binding/func.py:ptrace_attach", "ptrace/binding/func.py:ptrace_detach", "ptrace/binding/func.py:ptrace_syscall", "ptrace/binding/func.py:ptrace_cont", "ptrace/binding/func.py:ptrace_peektext", "ptrace/binding/func.py:ptrace_poketext", "ptrace/binding/func.py:ptrace_setoptions"]}
{"id": "C94", "title": "Floating point registers", "statement": "The items of the structure that ptrace_getfpregs or ptrace_getfpxregs returns are the floating point registers of the tracee, and no byte outside the structure is written.", "quantifier": "every contents of the registers and kernel answer", "why_tests_cant": "layouts of other machines, memory beyond an object", "anchors": ["ptrace/binding/func.py:ptrace_getfpregs", "ptrace/binding/func.py:ptrace_getfpxregs", "ptrace/binding/linux_struct.py:user_fpregs_struct", "ptrace/binding/linux_struct.py:user_fpxregs_struct"]}
{"id": "C95", "title": "Commands of gdb.py", "statement": "Every command that help lists, used with the argument it asks for, runs the method of that command with that argument; a command used otherwise, or unknown, runs nothing. Help lists each command once.", "quantifier": "every command line", "why_tests_cant": "unbounded command lines; prefixes of other commands", "anchors": ["gdb.py:Gdb.execute", "gdb.py:COMMANDS", "gdb.py:Gdb.mainLoop"]}
{"id": "C96", "title": "print", "statement": "print shows the value of the expression as decimal and hexadecimal number and exactly the mappings that contain it; an invalid expression is an error message and gdb goes on.", "quantifier": "every expression, value and list of mappings", "why_tests_cant": "unbounded values and mappings", "anchors": ["gdb.py:Gdb.print_", "ptrace/debugger/memory_mapping.py:MemoryMapping.__contains__", "ptrace/debugger/memory_mapping.py:MemoryMapping.__str__"]}
{"id": "C97", "title": "set", "statement": "set $name=value gives exactly that register the value; in any other case no register changes, and the user sees an error message.", "quantifier": "every command text, register, value and kernel answer", "why_tests_cant": "unbounded texts and values, kernel errors", "anchors": ["gdb.py:Gdb.set"]}
{"id": "C98", "title": "Following terms", "statement": "follow adds the bytes of the literal; xray prints one line for every occurrence of a term in a mapping of a process, with the addresses of the words that point to it. Every line is true, whatever the kernel answers.", "quantifier": "every term, memory, list of processes and mappings, kernel answer", "why_tests_cant": "unbounded memories; occurrences at every position relative to the buffer", "anchors": ["gdb.py:getPointers", "gdb.py:Gdb.parseBytes", "gdb.py:Gdb.addFollowTerm", "gdb.py:Gdb._xray", "gdb.py:Gdb.xray"]}
{"id": "C99", "title": "where and lists of gdb.py", "statement": "where passes its first two values to dumpCode; proclist, breakpoints and signals have exactly one line for every process, breakpoint and signal, mark the current process only, and sort signals by number.", "quantifier": "every text and state", "why_tests_cant": "unbounded lists", "anchors": ["gdb.py:Gdb.where", "gdb.py:Gdb.parseIntegers", "gdb.py:Gdb.procList", "gdb.py:Gdb.displayBreakpoints", "gdb.py:Gdb.displaySignals", "ptrace/debugger/breakpoint.py:Breakpoint.__str__", "ptrace/debugger/process.py:PtraceProcess.__str__"]}
{"id": "C100", "title": "Dumps of registers, stack, mappings and frames", "statement": "regs shows every register once, in the order of the structure, with its value; stack shows the mapping of the stack and the readable words around the stack pointer, each with its distance and value; maps shows every mapping once; backtrace shows every frame with its arguments and says when it was cut; a failure to read the process is a line, not an exception. gcore writes the memory of the process.", "quantifier": "every register table, memory, list of mappings, backtrace and kernel answer", "why_tests_cant": "unbounded lists and memories; failures of single reads", "anchors": ["ptrace/tools.py:dumpRegs", "ptrace/debugger/process.py:PtraceProcess.dumpRegs", "ptrace/debugger/process.py:PtraceProcess.dumpStack", "ptrace/debugger/process.py:PtraceProcess._dumpStack", "ptrace/debugger/process.py:PtraceProcess.dumpMaps", "gdb.py:Gdb.backtrace", "gdb.py:Gdb.displayInstr", "gdb.py:Gdb.gcore"]}
{"id": "C101", "title": "The report about a process", "statement": "dumpProcessInfo shows the number, state, parent, command line, environment, directory, users and groups of a process as the files of the kernel tell them; a file that cannot be opened only leaves out its own lines.", "quantifier": "every content of the files below /proc, every subset of them missing", "why_tests_cant": "needs processes with given names, arguments, users and states; files vanish when a process ends", "anchors": ["ptrace/process_tools.py:dumpProcessInfo", "ptrace/process_tools.py:formatProcessStatus"]}
{"id": "C102", "title": "Sizes, times and links below /proc", "statement": "readProcessStatm gives bytes, links are read as they are, getUptime and getSystemBoot give the time since boot and the local date of the boot (read once), timestampUNIX accepts 0..2147483647 only, isTraced tells whether a process is traced.", "quantifier": "every content of the files, page size and time zone", "why_tests_cant": "depends on the time zone, the state and the uptime of the machine", "anchors": ["ptrace/linux_proc.py:readProcessStatm", "ptrace/linux_proc.py:readProcessLink", "ptrace/linux_proc.py:getUptime", "ptrace/linux_proc.py:getSystemBoot", "ptrace/tools.py:timestampUNIX", "ptrace/debugger/process.py:PtraceProcess.isTraced"]}
{"id": "C103", "title": "Errors in the log", "statement": "writeError logs an error with its title, class and text at the level asked for, then the lines of the backtrace one level below, never below DEBUG; SystemExit and KeyboardInterrupt are raised again and not logged; the options set which records are shown.", "quantifier": "every exception, backtrace, title, level and set of options", "why_tests_cant": "all texts, levels and classes", "anchors": ["ptrace/error.py:writeBacktrace", "ptrace/error.py:formatError", "ptrace/error.py:writeError", "ptrace/logging_tools.py:getLogFunc", "ptrace/debugger/application.py:Application._setupLog"]}
{"id": "C104", "title": "Terminals, descriptors and options", "statement": "enableEchoMode sets the echo bit and nothing else; terminalWidth is the number of columns; _set_cloexec_flag sets one flag; --fork, --trace-exec and --trace-clone set exactly their ptrace options; the profiler returns or raises what the function does.", "quantifier": "every terminal state, size, set of flags and options", "why_tests_cant": "needs a terminal; all bit patterns", "anchors": ["ptrace/terminal.py:_terminalSize", "ptrace/terminal.py:terminalWidth", "ptrace/terminal.py:enableEchoMode", "gdb.py:Gdb.restoreTerminal", "ptrace/debugger/child.py:_set_cloexec_flag", "ptrace/debugger/application.py:Application.setupDebugger", "ptrace/debugger/application.py:Application.processOptions", "ptrace/profiler.py:runProfiler"]}
{"id": "C105", "title": "The value of an expression", "statement": "An arithmetic expression typed in gdb.py or found in a disassembled instruction has one reading, by the precedence and grouping of Python, and its value is the one computed: in gdb.py reduced to a word, or the word read at that address after a leading '*'; division by zero and negative shifts raise their exceptions.", "quantifier": "every expression of the grammar, every nesting, every number and register value", "why_tests_cant": "unboundedly many expressions; precedence mistakes show only in particular combinations", "anchors": ["gdb.py:Gdb.parseInteger", "gdb.py:Gdb.readRegister", "ptrace/debugger/parse_expr.py:parseExpression", "ptrace/debugger/parse_expr.py:replaceHexadecimal"]}
{"id": "C106", "title": "The report about a signal", "statement": "When a signal stops a traced process, the report is framed by two bars and names the process and the signal; when the reason was found out it is followed by the reason, the sender of a SIGCHLD, the instruction, one line for each mapping around the address and one for each register; the reason says whether memory was read, written or accessed, where and how many bytes, or where the code could not be executed; reports of different reasons differ. If the analysis raises, nothing is printed.", "quantifier": "every signal, process state, set of mappings, registers, instruction, address (also negative) and size", "why_tests_cant": "the text depends on address, size, mappings and registers, each with unboundedly many values; that two different faults never look alike is a claim about all pairs", "anchors": ["ptrace/debugger/process_event.py:ProcessSignal.display", "ptrace/debugger/signal_reason.py:SignalInfo.display", "ptrace/debugger/signal_reason.py:InvalidMemoryAccess", "ptrace/debugger/signal_reason.py:StackOverflow", "ptrace/debugger/signal_reason.py:ChildExit", "ptrace/debugger/signal_reason.py:InvalidInstruction"]}
{"id": "C107", "title": "The lines strace.py prints", "statement": "A run of strace.py prints for each event its lines in order and nothing else: a call once when it ends with its result in a column, with --enter also when it starts, without it also when the process ends in the call; calls left out by the filters are never printed; the number of the process and the address are in front if asked for; new processes, executions, signals and ends are announced with their process. Printing does not change what the tracer does. --list-syscalls prints every call of the table once, ordered by number. The line about the new program tells its arguments, environment and process.", "quantifier": "every run, every kernel behaviour, every set of options, every table", "why_tests_cant": "unbounded runs with every interleaving of events and processes", "anchors": ["strace.py:SyscallTracer.displaySyscall", "strace.py:SyscallTracer.syscallTrace", "strace.py:SyscallTracer.syscall", "strace.py:SyscallTracer.processExited", "strace.py:SyscallTracer.newProcess", "strace.py:SyscallTracer.processExecution", "strace.py:SyscallTracer.createChild", "strace.py:SyscallTracer.parseOptions"]}
{"id": "C108", "title": "The stream of decoded instructions", "statement": "The generator Decode of the binding of diStorm64 yields the instructions of the code one after the other without gap or overlap, each once, up to the first bytes that are none or the end, however many instructions the C function writes at a time; a kind of code that does not exist, input the C function refuses and lack of memory are reported by exceptions, behind the instructions already yielded. What was yielded stays what it was.", "quantifier": "every code, every offset, every decoder and every division into batches", "why_tests_cant": "code of any length; the batch boundary is only met with more instructions than the buffer has slots", "anchors": ["ptrace/pydistorm.py:Decode"]}
{"id": "C109", "title": "A process that is let go has its own code", "statement": "When a process is detached, by detach, by quit or because its object is no longer used, every byte that a breakpoint replaced is what it was before; removing a breakpoint from the list of the process also removes it from memory.", "quantifier": "every history of breakpoints, every kernel, every order of finalisation", "why_tests_cant": "depends on the history of breakpoints and on the order in which unused objects are finalised", "anchors": ["ptrace/debugger/process.py:PtraceProcess.detach", "ptrace/debugger/process.py:PtraceProcess.__del__", "ptrace/debugger/process.py:PtraceProcess.removeBreakpoint", "ptrace/debugger/breakpoint.py:Breakpoint.__del__", "ptrace/debugger/breakpoint.py:Breakpoint.desinstall"]}
{"id": "C110", "title": "Breakpoints, fork and execve", "statement": "The child of a fork has the code of the program without the breakpoints of its parent, or its object lists them; removing a breakpoint that was set before execve does not change the new program.", "quantifier": "every history of breakpoints, every new program, every kernel", "why_tests_cant": "all histories and all contents of memory of the new program", "anchors": ["ptrace/debugger/process.py:PtraceProcess.__init__", "ptrace/debugger/process.py:PtraceProcess.findBreakpoint", "ptrace/debugger/breakpoint.py:Breakpoint.desinstall"]}
{"id": "C111", "title": "Recognising the processor and the system", "statement": "For every name of the machine at most one family of processors is found; every name Linux prints for a supported family gives that family and no other name does; the size and the greatest value of a word are those of a pointer of the interpreter; at most one operating system is found; on a machine that is not recognised every use of the program counter, the stack or the frame pointer raises PtraceError.", "quantifier": "every string uname, architecture and sys.platform may return, both pointer sizes, every state of the registers", "why_tests_cant": "the constants are computed at import from the machine the tests run on; only one machine can be tried, and the strings are unbounded", "anchors": ["ptrace/cpu_info.py", "ptrace/os_tools.py", "ptrace/binding/cpu.py"]}
{"id": "C112", "title": "The registers taken for program counter, stack and frame pointer", "statement": "On every recognised machine the register table is the one of the machine, and getInstrPointer, getStackPointer and getFramePointer return the program counter, the stack pointer and the frame pointer of the processor.", "quantifier": "every machine name, both pointer sizes, every state of the registers and every answer of the kernel", "why_tests_cant": "the tests run on one processor; the property is about eight", "anchors": ["ptrace/binding/cpu.py", "ptrace/binding/linux_struct.py:user_regs_struct", "ptrace/debugger/process.py:PtraceProcess.getInstrPointer", "ptrace/debugger/process.py:PtraceProcess.getStackPointer", "ptrace/debugger/process.py:PtraceProcess.getFramePointer"]}
{"id": "C113", "title": "Order and fairness of waiting for any process", "statement": "Waiting for any of several processes reports the first process, in the order of the registry, that has something to report, after asking every process before it; it pauses only after all were asked in vain; a process that has something to report is reported in the end.", "quantifier": "every kernel, every reachable registry with at least two processes, every number of events served", "why_tests_cant": "starvation is a statement about unboundedly long runs; the order is a statement about every registry and every sequence of replies", "anchors": ["ptrace/debugger/debugger.py:PtraceDebugger._wait_event", "ptrace/debugger/debugger.py:PtraceDebugger._wait_event_pid", "ptrace/debugger/debugger.py:PtraceDebugger.waitProcessEvent"]}
{"id": "C114", "title": "Breakpoints do not change what a program computes", "statement": "In a gdb.py session with break, delete, cont, step, until and stepi, memory and registers at every prompt are those the program has without a debugger after some number of instructions, apart from the trap bytes at the listed breakpoints; and cont stops at a listed breakpoint whenever the program comes to its address.", "quantifier": "all processors whose instructions depend on the bytes they use, all programs, all sessions, all kernel replies that are complete", "why_tests_cant": "tests run a few programs with a few breakpoints; that no sequence of commands disturbs any program needs a simulation argument over all sessions and all programs", "anchors": ["gdb.py:181-205", "gdb.py:566-598", "gdb.py:700-727", "ptrace/debugger/breakpoint.py:16-55", "ptrace/debugger/process.py:741-759"]}
{"id": "C115", "title": "itrace prints the address of every instruction it lets the program execute", "statement": "With examples/itrace.py -n N the program is resumed by at most N requests to stop at a system call and, once N were made, only by single steps. Every single step comes directly after the instruction pointer of the process was read, and there is exactly one line for each, numbered from 0, with the number of the process and this address; the trace ends with a line saying what happened to the process, and the tracer's exit status is that of the program.", "quantifier": "every reply of the kernel to every request, every number N, every state of the debugger in which the process is known, normal return or exception", "why_tests_cant": "The order of reads, lines and single steps has to hold for every sequence of stops, signals, forks and errors; a test only sees one.", "anchors": ["examples/itrace.py:27-49", "strace.py:226-275", "ptrace/debugger/process.py:461-464"]}
{"id": "C116", "title": "On BSD a block of memory is read and written exactly as asked for, or an error is raised", "statement": "On FreeBSD and OpenBSD, where one ptrace_io request moves a block: readBytes(address, size) makes one request of this size and returns the bytes of the process at address..address+size-1; writeBytes stores exactly the given bytes there and changes no other byte; readCString returns a beginning of the string in memory, of at most the size asked for, and reports it as complete only if it is.", "quantifier": "every address, size, block and memory, every answer of the kernel to every request", "why_tests_cant": "The number of bytes the kernel moves is its own choice at each request and is never looked at by the code; tests do not provoke short transfers.", "anchors": ["ptrace/debugger/process.py:543-552", "ptrace/debugger/process.py:593-603", "ptrace/debugger/process.py:649-673", "ptrace/binding/func.py:322-324"]}
{"id": "C117", "title": "On BSD the end of a process is reported once, with its exit code", "statement": "On FreeBSD and OpenBSD waiting for a process reports exactly what the kernel's first answer says (exit code, killing signal or stopping signal), whatever the second wait made there for a process that exited answers. When an end has been reported the process is no longer running, attached or registered. A process that exited is waited for exactly twice, a wait that must not block does not block, and the exit code is not lost.", "quantifier": "every answer of the kernel to every request, any number of stops between the two waits, every state in which the process is known", "why_tests_cant": "The second wait is itself a full wait loop that may deliver signals, resume the process and unregister it while the first is being handled; only BSD executes it and the project's tests run on Linux.", "anchors": ["ptrace/debugger/process.py:334-391", "ptrace/debugger/debugger.py:112-190"]}
{"id": "C118", "title": "The generator of the table of prototypes keeps every parameter", "statement": "From the text of a kernel header the generator prints one entry for every system call declared at the beginning of a line, in alphabetical order, and the last declaration of a name wins. An entry lists the parameters in order with the type and name that the declaration gives them, whatever white space, line breaks and __user marks it contains; void means no parameters, a parameter without a name gets an empty name, and int * of pipe and pipe2 becomes int[2]. The generator accepts every declaration.", "quantifier": "every header text made of lines and declarations, every list of parameters", "why_tests_cant": "The generator downloads its input and has no tests; its output is pasted into the table by hand, so a parameter dropped for one declaration in hundreds goes unnoticed.", "anchors": ["SYSCALL_PROTOTYPES.codegen.py:14-47"]}
{"id": "C119", "title": "Requests and registers on FreeBSD and OpenBSD", "statement": "On FreeBSD and OpenBSD every tracing function makes exactly one request, with the number that the running system gives it, the process, and the arguments in the order the kernel expects (continue where it stopped, then the signal). After getregs every attribute of the structure is the register of that name of the process, no other byte of the tracer's memory has changed, and a refusal is an error with the kernel's error number.", "quantifier": "every process, signal and address, every answer and every effect of the kernel, FreeBSD and OpenBSD on Intel CPUs and FreeBSD on PowerPC", "why_tests_cant": "The branches only exist on BSD, where the project is not tested; a structure that is too small corrupts the interpreter silently, and a wrong offset yields plausible register values.", "anchors": ["ptrace/binding/func.py:56-83", "ptrace/binding/func.py:302-324", "ptrace/binding/freebsd_struct.py:12-66", "ptrace/binding/openbsd_struct.py:14-32", "ptrace/debugger/process.py:415-427"]}
{"id": "C120", "title": "System calls, their arguments and results on BSD", "statement": "On FreeBSD and OpenBSD with Intel CPUs a system call is shown with the name the kernel gives its number and with the arguments the kernel takes: registers on amd64, words above the return address on i386. A call that failed is shown with its error, a call that succeeded with its value.", "quantifier": "every register content and stack, every table of error numbers, every call in the table", "why_tests_cant": "BSD reports failure in the carry flag instead of a negative value, and takes 64-bit arguments as two stack words on i386: only runs on BSD that fail, or seek past 4 GiB, show the difference.", "anchors": ["ptrace/syscall/ptrace_syscall.py:13-45", "ptrace/syscall/ptrace_syscall.py:85-155", "ptrace/syscall/names.py:21-25", "ptrace/syscall/freebsd_syscall.py:5-401"]}
{"id": "C121", "title": "Memory accesses through the binding of the C library", "statement": "Reading and writing memory word by word through the binding, in a process whose memory file cannot be opened, has the outcome that the kernel decides: the bytes of the process, the bytes in place and nothing else changed, or the error number of a word that touches the range. This holds whatever words the memory contains, all ones included, and whatever failed before; with ctypes and with the C extension, with every C library, and an address that does not exist is refused.", "quantifier": "every memory content, address, size, data, history of requests and of failures, every decision of the kernel; both byte orders and word sizes", "why_tests_cant": "A word of ones is also the mark of an error, and telling them apart depends on errno left over from any earlier request; the failure needs an error, then that word, with a C library other than that of the tests.", "anchors": ["ptrace/binding/func.py:147-217", "ptrace/debugger/process.py:504-541", "ptrace/debugger/process.py:594-640", "ptrace/debugger/process.py:706-710", "cptrace/cptrace.c:15-73"]}
{"id": "C122", "title": "Signals that strace.py passes on", "statement": "In a complete run of the tracing loop the signals handed to the traced processes are, in order, exactly those whose stops the kernel reported: none is lost, repeated, invented, reordered or handed to another process.", "quantifier": "every reachable debugger state, every kernel reply sequence (forks, execs, exits, interrupted waits, several processes), every set of ignored system calls, every amount of fuel with which the run ends", "why_tests_cant": "Losing or duplicating a signal depends on where in the interleaving of system calls, forks, execve traps and other processes the signal arrives; a test sees a few schedules.", "anchors": ["strace.py:158-219", "ptrace/debugger/debugger.py:74-236", "ptrace/debugger/process.py:180-260", "ptrace/debugger/syscall_state.py:13-48"]}
{"id": "C123", "title": "strace --filename, --socket and --syscalls select their calls", "statement": "On every CPU with a table of system calls, `strace --filename` shows exactly the calls one of whose arguments is a path name, and `strace --socket` exactly the calls of the socket interface; a call without a name in the table is in neither class; both options together show the union. `--syscalls` with names of calls of the CPU shows exactly those calls, and every call can be selected by its name.", "quantifier": "all CPUs with a table, all register contents (hence all call numbers), all prototypes and aliases", "why_tests_cant": "The classes come from names of arguments in a table of 300 prototypes and from seven hand-written lists; tests run on the CPU of the machine and look at a handful of calls.", "anchors": ["strace.py:93-121", "strace.py:137-143", "ptrace/syscall/prototypes.py", "ptrace/syscall/linux/x86_64.py", "ptrace/syscall/linux/i386.py", "ptrace/syscall/linux/powerpc64.py"]}
{"id": "C124", "title": "A gdb session that does not let the program run leaves it alone", "statement": "Whatever lines are entered at a stop of gdb.py, as long as they only contain commands that do not resume the process: commands that show something (proc, regs, stack, backtrace, where, where2, maps, breakpoints, signals, hexdump, print) leave memory, registers and breakpoints as they were and never ask the kernel to change memory; set changes registers only; break and delete never change registers; and at any moment the memory is the original one with a trap byte exactly at the listed breakpoints, so that deleting all of them restores the program.", "quantifier": "for every list of lines, every split of a line into commands, every kernel answering or refusing any request at any time, every memory and register content, every eval and every content of /proc", "why_tests_cant": "A session is an arbitrary sequence of commands, each of which may be refused half-way by the kernel; a test checks one sequence with one kernel behaviour.", "anchors": ["gdb.py:298-365", "gdb.py:429-545", "gdb.py:700-727", "gdb.py:804-847", "ptrace/debugger/process.py:192-283", "ptrace/debugger/process.py:667-759", "ptrace/debugger/breakpoint.py:16-55"]}
{"id": "C125", "title": "strace.py follows a program of one process from its start to its end", "statement": "For every program of one process (any sequence of system calls, successful execve calls and signals, with any way to end), every choice of options and every kernel that makes the stops described in ptrace(2) and refuses nothing: strace.py terminates, its exit code is that of the program (128 plus the last signal seen if it was killed), no process is left in the debugger, and its requests are exactly these: attach if needed, wait, set the options, and for each stop wait for it, read the registers of calls that are shown, print what has to be printed, and let the process go on once, with the signal it received unless that is SIGTRAP. Calls hidden by the user are not read and not printed, starts are printed only with --enter, and a call that never returns is printed at the end of the process.", "quantifier": "for all programs (lists of deeds), endings, sets of shown calls, --enter or not, --trace-exec or not, attached before or not, kernels that follow the program", "why_tests_cant": "A test runs one program. The claim is about every sequence of calls and signals of any length; a failed execve followed by any other call exchanges starts and ends for the rest of the run, which a test only sees if its program does that.", "anchors": ["strace.py:158-224", "strace.py:226-275", "ptrace/debugger/syscall_state.py:5-48", "ptrace/debugger/debugger.py:74-102", "ptrace/debugger/debugger.py:195-223", "ptrace/debugger/process.py:355-413", "ptrace/debugger/process.py:466-476"]}
{"id": "C126", "title": "quit ends every process the debugger created and releases the others", "statement": "Whatever processes are registered, quit returns and leaves none; it deals with them in reverse order of registration; a process created by the debugger is sent SIGKILL once, by the request that fits its state, the signals that were still on their way are passed on (except SIGTRAP and SIGSTOP) and it is waited for until it ends; a process that was attached gets one PTRACE_DETACH and nothing else; a process that has ended already gets nothing. No other request is made.", "quantifier": "for all debuggers reached by any calls, any number of registered processes, any list of pending signals per process and any way to end, all kernels that let the processes end", "why_tests_cant": "The order and number of stops after SIGKILL depend on races; a test quits with one or two processes that are stopped and quiet.", "anchors": ["ptrace/debugger/debugger.py:104-114", "ptrace/debugger/process.py:291-353"]}
{"id": "C127", "title": "simple_dbg.py takes hold of a process, shows one event and leaves it", "statement": "For every process, created from a command line or attached by number, whatever it does after it is continued: examples/simple_dbg.py ends, reports the event that happened, leaves no process behind, and its requests are exactly: attach (only for a process that exists), wait, set the options, read the registers, continue, wait, and then nothing if the process ended, PTRACE_DETACH if it was attached, or SIGKILL and waiting for the end if it was created. A signal that stopped an attached process reaches it. One argument that is a number is a process to attach, anything else is a program.", "quantifier": "for all processes, first stops by SIGTRAP or SIGSTOP, next events, pending signals, kernels that refuse nothing (registers may be unreadable), command lines", "why_tests_cant": "The repository has no test of the example; a test would show one event of one program.", "anchors": ["examples/simple_dbg.py:7-57", "ptrace/debugger/debugger.py:74-114", "ptrace/debugger/process.py:312-353", "ptrace/debugger/process.py:712-733"]}
{"id": "C128", "title": "strace.py follows a tree of processes, in whatever order they stop", "statement": "For every tree of processes (made with fork, vfork and clone, each with its own system calls, signals, execve and end), every choice of --fork, --trace-exec, --trace-clone, --enter and of shown calls, created or attached, and every scheduling: strace.py does for each process of the tree exactly what a tracer has to do at each of its stops (wait with __WALL exactly for threads, set the options once at the first stop, ask for the new process at the event, look at the registers, print, pass the signal on, let it go on), never mixes up the system calls of two processes, does nothing for a process outside of the tree, ends when all of them have ended and has the exit code of the first process.", "quantifier": "for all finite trees of processes, stops, options, filters, kernels that answer in any order and say any number of times that there is nothing yet", "why_tests_cant": "The order in which processes stop is chosen by the kernel: the number of schedules grows exponentially with the stops, and a test cannot choose them.", "anchors": ["strace.py:158-275", "ptrace/debugger/debugger.py:74-252", "ptrace/debugger/process.py:254-324", "ptrace/debugger/syscall_state.py:1-80"]}
{"id": "C129", "title": "A session of gdb.py delivers every signal once and ends with the program", "statement": "For every program of one process (the signals that stop it, in order, and its end by exit or by a signal), created or attached, and everything the user types at the prompt (cont, empty lines, commands that only tell something or are not known, Control-C): gdb.py makes exactly these requests: attach if needed, wait for the first stop, set the options; for each line that is cont or repeats it, let the process go on with the signal that stopped it (SIGTRAP left out), wait, and show the next signal. Every signal is delivered exactly once and in order, the process is stopped whenever the user is asked, and when the program ends the session ends by itself: nothing more is read and quitting asks for nothing. The same holds with events and with several processes.", "quantifier": "for all lists of signals, endings, lists of typed lines, options and kernels that let the process run", "why_tests_cant": "The number of interleavings of signals and typed lines is infinite, and a lost or doubled signal shows only for some of them.", "anchors": ["gdb.py:151-205", "gdb.py:666-671", "gdb.py:738-784", "gdb.py:790-884", "ptrace/debugger/application.py:62-80", "ptrace/debugger/debugger.py:74-241"]}
{"id": "C130", "title": "strace.py prints each system call of a program once, with its own arguments and result", "statement": "For every program of one process (system calls with their registers and results, successful execve, signals, an ending inside or outside of a call, by exit or by a signal), every choice of filters, --enter, --pid or a new program, and every kernel that lets it run: strace.py prints first the line about the process, then for each deed in order exactly its lines and nothing else, and last how the process ended. A call that is shown has one line with the registers it was made with and the result it had, and with --enter also one without result at its start; a call that is not shown has none; a call the process ends in has one line without result; execve with events has its line in between; a signal has the lines made while the process is stopped by it. Printing changes nothing else in the run. The same holds for a failed execve without events.", "quantifier": "for all lists of deeds, endings, options, texts and kernels that let the process run", "why_tests_cant": "A result printed with the arguments of another call, a line lost or doubled shows only for some sequences of calls, signals and filters; there are infinitely many.", "anchors": ["strace.py:145-224", "strace.py:226-281", "ptrace/debugger/application.py:62-79", "ptrace/debugger/syscall_state.py:1-92"]}
{"id": "C131", "title": "strace.py -f prints for each stop of each process exactly its lines, in the order the kernel tells them", "statement": "For every tree of processes (fork, vfork, clone, execve, system calls, signals, endings inside or outside of a call), every order in which the kernel tells their stops, and every choice of --fork, --trace-exec, --trace-clone, --enter and of shown calls, created or attached: strace.py prints the line about the first process and then, stop by stop in the order in which the kernel told them, exactly the lines of this stop: a new process is announced once, at its first stop; a shown call has one line when it ends, with the process and the registers it started with and its own result, whatever other processes do in between (and one at its start with --enter); a call a process ends in has one line without result; signals, execve events and ends have theirs; nothing else is printed. Hence the number of lines does not depend on the scheduling. The exit code is set by the last stop that has one.", "quantifier": "for all finite trees of processes, stops, options, filters, texts, and kernels that tell the stops in any order", "why_tests_cant": "A line that shows the arguments of one process with the result of another appears only under some interleavings; the kernel chooses them and their number grows exponentially.", "anchors": ["strace.py:145-224", "strace.py:226-281", "ptrace/debugger/debugger.py:74-252", "ptrace/debugger/syscall_state.py:1-92", "ptrace/debugger/application.py:62-79"]}
{"id": "C132", "title": "The line of a system call shows the registers and the memory of the process", "statement": "For every CPU with names of system calls, every choice of the options --enter, --type, --name, --address, --string-max-length and --raw-socketcall, and every state of the registers and of the memory when a call begins and when it ends: the text of a call with a prototype has the name of the number in the register of the kernel's convention and the declared arguments; each argument has the value of its register when the call began; integers are shown with their C type, constants of the kernel by their name, names of files and structures as they are in the memory after the call, or before it for the arguments that are lost (execve, select, clone); whether the call was also shown when it began makes no difference. A call without a prototype shows all its registers in hexadecimal. A socketcall shows the words of its array. The result is that of the register of the convention when the call ends. For every tree of processes, the line that strace.py prints at the stop that ends a shown call is this text in its column, ' = ' and this result.", "quantifier": "for all CPUs with a table of names, options, registers, memories before and after, prototypes, trees of processes and schedules", "why_tests_cant": "The line is the product of tables of 300 calls for seven CPUs, of the memory at two moments, and of which of the two a text is made from; a text made from the wrong memory looks right whenever the call leaves its memory alone, and tests run on one CPU.", "anchors": ["ptrace/syscall/ptrace_syscall.py:56-159", "ptrace/func_call.py:1-82", "ptrace/func_arg.py:1-105", "ptrace/syscall/syscall_argument.py:49-239", "ptrace/syscall/socketcall.py:44-58", "strace.py:145-197"]}
{"id": "C133", "title": "What gdb.py does for everything a user can type", "statement": "For every session of gdb.py with a program, whatever happens to the program (signals, traps, system calls, Control-C in a wait, its end) and whatever the user types (cont, signal, stepi, step, until, sys, commands that look or tell or are mistaken, several commands in a line, empty lines, Control-C and end of input at the prompt): gdb.py makes exactly the requests of these commands, in order; a command that is cut short by another stop makes no further request, removes its trap and leaves the prompt with that signal kept; the session ends with the program. At each prompt the process is stopped. Every signal the program was stopped by is given to it exactly once, in order of arrival, unless the user gives another one. sys shows the start and the end of each system call.", "quantifier": "for all stories of a program, all lists of lines typed, all answers to looks, with and without events for execve", "why_tests_cant": "The outcome depends on which of the waits a signal or Control-C hits, and on all commands before; the interleavings of user, program and signals are unbounded and cannot be provoked in a test.", "anchors": ["gdb.py:166-206", "gdb.py:381-392", "gdb.py:566-664", "gdb.py:738-848", "ptrace/debugger/process.py:405-450", "ptrace/debugger/debugger.py:142-206"]}
{"id": "C134", "title": "Under strace.py a program does what it does alone", "statement": "For every program of one process, whose next stop and registers may depend on all signals it was given so far: if it does these deeds (system calls, execve, signals that arrive) and ends in this way when every signal reaches it, then it does the same deeds and ends in the same way under strace.py. At each stop it is given exactly what it would get alone, strace.py makes exactly the requests for these deeds, and its exit code is that of the program.", "quantifier": "for all programs as functions of the signals received, all kernels that run them, all deeds and endings, all choices of options, created or attached", "why_tests_cant": "A test compares one run with one run of one program; that no program can tell the tracer is there by its signals is a statement about all reactions to all sequences of signals.", "anchors": ["strace.py:87-181", "strace.py:183-216", "ptrace/debugger/process.py:270-310", "ptrace/debugger/debugger.py:142-206"]}
{"id": "C135", "title": "strace.py -f in an open world", "statement": "Processes may react to everything that happens, to each other and to the tracer, start new processes without end and never end. At each moment of a run of strace.py with --fork, --trace-exec and --trace-clone in any combination, for every process, strace.py has done, in order, exactly what is to be done at the stops it was told so far; it does something only for processes it was told of. It never fails: either it is still running, or all processes it was told of are over, everything was done for them, and its list is empty. It does not go on by itself: if the processes make a bounded number of stops and the kernel is not silent for long, then it ends.", "quantifier": "for all kernels and worlds, all runs in which the promises of ptrace(2) were kept, all options, all filters of system calls, created or attached, all moments of the run, all interleavings, finite or not", "why_tests_cant": "A test follows one tree of processes that ends; here the next stop of a process is an arbitrary function of the whole past, and the run need not end.", "anchors": ["strace.py:87-216", "ptrace/debugger/debugger.py:116-262", "ptrace/debugger/process.py:237-310", "ptrace/debugger/syscall_state.py:18-74"]}
{"id": "C136", "title": "What strace.py -f prints in an open world", "statement": "Processes may react to everything that happens, to each other and to the tracer, start new processes without end and never end. Whenever one looks at a run of strace.py with --fork, --trace-exec and --trace-clone in any combination, ended or still going on: it has printed the line about the first process and then, for each stop it was told, in the order in which it was told, exactly the lines of this stop, and nothing else: a new process is announced once, at its first stop; a shown call has one line when it ends, with the process and the registers it started with and its own result, whatever other processes did in between (and one at its start with --enter); a call a process ends in has one line without result; signals, execve events and ends have theirs. The line of a call that has ended shows the registers and the memory of the process at its two stops. If strace.py has ended, its exit code is set by the last stop that has one.", "quantifier": "for all kernels and worlds, all runs in which the promises of ptrace(2) were kept, all options, all filters of system calls, created or attached, all moments between two stops, finite or infinite runs", "why_tests_cant": "A test compares the output of one tree of processes that ends; here the next stop of a process is an arbitrary function of the whole past, and the output of a run that does not end is compared with the stops told so far.", "anchors": ["strace.py:145-275", "ptrace/debugger/debugger.py:116-262", "ptrace/debugger/syscall_state.py:18-74", "ptrace/syscall/ptrace_syscall.py:20-130"]}
{"id": "C137", "title": "The name in the line of a system call is the kernel's", "statement": "Every line strace.py prints about a system call (at its end, with --enter at its start, or when the process ends in it) shows before the parenthesis the name that the headers of the kernel give to the number of the call. A number that is not in the table is shown as syscall<number>. This holds for every process that strace.py -f follows, at any moment, and whatever the memory of the process answers.", "quantifier": "For all registers, memories and options, all numbers in the headers for x86-64, i386, aarch64, riscv32 and riscv64, and all runs of strace.py -f in an open world.", "why_tests_cant": "Tests run a few calls on one CPU; a name that is wrong or missing in one of five tables, or a line that takes its name from another call, shows only with that call in that place.", "anchors": ["ptrace/syscall/ptrace_syscall.py:82-88", "ptrace/syscall/names.py:1-26", "ptrace/func_call.py:63-77", "strace.py:138-205"]}
{"id": "C138", "title": "Under strace.py -f processes do only what they can do alone", "statement": "Take processes that react to each other and to the signals they get, any number of them, started at any time, which need not end. Whatever they do under strace.py -f, they can do when nobody traces them: at each moment of the run the processes have gone on one after the other, each from where it was, and each was given just the signal that had arrived, or none. strace.py makes no other request that changes a process: it sends no signal, ends none, steps none and lets none go. If alone the processes come to their end whatever the order, they do so under strace.py, and strace.py ends.", "quantifier": "For all behaviours of processes as a function of all that the processes have done before, all orders in which stops are told, all runs of strace.py -f and each moment of them.", "why_tests_cant": "A signal that is lost, given twice, or given to another process changes what a program does only if it is at that moment in a state that reacts to it; tests trace a few programs that do not.", "anchors": ["strace.py:138-261", "ptrace/debugger/process.py:455-478", "ptrace/debugger/debugger.py:205-235", "ptrace/debugger/syscall_state.py:30-60"]}
{"id": "C139", "title": "The command lines of strace.py and gdb.py mean what the help tells", "statement": "Every command line of the form the help describes is read as described: switches by name, by the beginning of a name that no other switch has, by letter, letters run together, values in the next word or in the same, in any order and anywhere up to a `--`; the last one counts, the others keep their factory values (300 and 20 for the lengths). The words that are left, all words after `--` included, are the program, found by its path. With `--pid` that process is attached, otherwise the program is started; `-f` also shows the process in each line; `--output` gets the lines. Nothing else is accepted: an unknown or ambiguous switch ends the program with 2, nothing to trace with 1, `--help` and `--list-syscalls` with 0.", "quantifier": "For all command lines: lists of words of any length with any characters.", "why_tests_cant": "The forms of switches combine freely with each other and with values that look like switches; the tests of the project use three fixed lines.", "anchors": ["strace.py:29-135", "gdb.py:153-165", "ptrace/debugger/application.py:32-44", "ptrace/debugger/application.py:62-93"]}
{"id": "C140", "title": "A method of a process makes one request, for this process", "statement": "attach, detach, cont, syscall, singleStep, kill and setoptions of a process each make exactly the request of that name to the kernel, for that process and with the arguments of the caller (signal 5, which is for the debugger, is not passed on). attach asks nothing if the process is attached, detach asks nothing if it is not or has ended. An error is raised if and only if the kernel refuses, with the number the kernel gave. Afterwards the object says what was done (let run: not stopped; attached; let go: not attached and no longer in the debugger), and nothing else has changed, in this process or any other.", "quantifier": "For all states of the debugger, all processes, arguments and answers of the kernel.", "why_tests_cant": "Tests run with a kernel that agrees, and look at the process they act on, not at the others; a lost signal is seen only by a program that reacts to it.", "anchors": ["ptrace/debugger/process.py:179-190", "ptrace/debugger/process.py:291-310", "ptrace/debugger/process.py:461-476", "ptrace/debugger/process.py:721-730"]}
{"id": "C141", "title": "strace.py from its command line to its last line", "statement": "For every command line that the manual of strace.py allows (C139), strace.py traces the process asked for (the one given by --pid, or a new one for the program that is located first), turns on the options of the kernel that --fork, --trace-exec and --trace-clone ask for, and prints the line about this process and then for each stop the kernel told of, in the order in which they were told, exactly the lines of that stop. A call is shown at its end if and only if its name passes the filters on the command line (--syscalls, --filename, --socket, --ignore-regex), and at its start if and only if --enter is given as well. The line has the number of the process iff -f or --show-pid is given, the address iff --show-ip is given, the types, names and addresses of arguments and the limits of strings and arrays as the options say. All lines go to the file of --output. The exit status is that of the last stop that has one. A line that asks for nothing that can be traced ends strace.py before any request, with the status 0 for --help and --list-syscalls, 1 if there is nothing to trace, a call of the filter is unknown or the expression is none, and 2 for an unknown switch.", "quantifier": "for all command lines, all filters and expressions, all kernels that keep the promises of ptrace(2), all processes and stops, and all lengths of the run", "why_tests_cant": "A test runs one command line over one program; the claim joins every combination of the options with every history of processes.", "anchors": ["strace.py:22", "strace.py:36", "strace.py:93", "strace.py:137", "strace.py:146", "strace.py:226", "strace.py:245", "strace.py:255", "ptrace/debugger/application.py:49", "ptrace/debugger/application.py:62"]}
{"id": "C142", "title": "gdb.py, from its command line to its end, does what is asked for and leaves the processes as it found them", "statement": "For every command line of gdb.py that names a program or a process (all ways to write the options, as in C139), every program of one process, and everything the user types at the prompt: gdb.py traces this process and no other and makes exactly the requests of the session described by C133. When the program is over, gdb.py ends and asks for nothing else. When the user leaves (quit, end of file, or nothing more is typed), a process that gdb.py has created is sent SIGKILL by the request that fits its state, signals still on their way are passed on except SIGTRAP and SIGSTOP, and it is waited for until it ends; a process that was running before gets one PTRACE_DETACH and nothing else; no process stays registered. Whatever the kernel replies and whatever is typed, a process given with --pid gets no signal when gdb.py ends. A command line with nothing to trace ends with status 1, help with 0, an unknown switch with 2, before any request. During a session nothing changes the number, the parent, the kind or the origin of a process object.", "quantifier": "all command lines of the grammar, all programs (also ones that react to what they get), all lists of inputs, all kernels that tell this story (all kernels at all for the part about --pid)", "why_tests_cant": "Command lines, programs, inputs and kernel replies are unbounded and interact; a wrong was_attached flag or a request too many shows only for some combination of origin, stop state and pending signals at the moment the user leaves.", "anchors": ["gdb.py:153-165", "gdb.py:790-886", "ptrace/debugger/application.py:14-91", "ptrace/debugger/debugger.py:74-114", "ptrace/debugger/process.py:312-345"]}
{"id": "C143", "title": "No process is touched but the one asked for and the children the kernel told of", "statement": "Each ptrace request, each kill, each wait, each display of a process that the library makes names a process whose number the user gave to a method, or a process that the kernel reported earlier, in the reply to PTRACE_GETEVENTMSG, as the child of a traced process. No wait is for 'any child' unless the user asked for this. PTRACE_ATTACH is used only for a number the user gave. The same holds of strace.py, from its command line to its last line, where the only number the user gives is that of --pid or of the program started, and of gdb.py, where numbers typed after the command attach count as well. It holds for every kernel, also one that breaks every promise of ptrace(2), on every path through an exception and an interrupt by the user.", "quantifier": "all sequences of method calls, all command lines, all inputs typed, all kernels (every reply to every call), all lengths of the run", "why_tests_cant": "A signal to a wrong process shows up only in rare orders of events, such as the end of a process while another one is handled, an error in the middle of a clean-up, or a number the kernel uses again. A test sees the processes it made; the claim is about every process on the machine.", "anchors": ["ptrace/debugger/debugger.py:74-114", "ptrace/debugger/debugger.py:116-185", "ptrace/debugger/process.py:160-190", "ptrace/debugger/process.py:401-440", "ptrace/debugger/application.py:46-79", "gdb.py:558-575", "gdb.py:754-790", "strace.py:211-275"]}
{"id": "C144", "title": "A process is taken for ended only on the word of the kernel", "statement": "A process object counts as not running only if the kernel told that its process is over, while the object was already there: a wait returned its number with a status of an exit or of a death by a signal, a wait for it failed with ECHILD, or the request that was to kill it failed with ESRCH; or else the user of the library said so by processTerminated. A stop, an event, an error of another request, the end of another process, or the end of an earlier process with the same number is never taken for it. When quit returns without an exception, this was told for every process that was registered and had been created by the debugger, so that none of them is left alive. The same holds of strace.py from its command line to its end.", "quantifier": "all sequences of method calls, all command lines of strace.py, all kernels (every reply to every call), all lengths of the run, all reuse of process numbers", "why_tests_cant": "Whether an end is taken for granted too early depends on the order of replies, errors and interruptions over the whole run, on numbers that the kernel uses again, and on objects that were removed meanwhile; a test shows the orders it happens to meet.", "anchors": ["ptrace/debugger/process.py:291-345", "ptrace/debugger/process.py:355-399", "ptrace/debugger/process.py:461-476", "ptrace/debugger/debugger.py:104-185", "gdb.py:566-598"]}
{"id": "C145", "title": "Requests are made to stopped processes", "statement": "Each request that the kernel grants for a stopped process only (PTRACE_CONT, PTRACE_SYSCALL, PTRACE_SINGLESTEP, PTRACE_SETOPTIONS, PTRACE_GETEVENTMSG, reading or writing the registers, PTRACE_DETACH) is made while the process is stopped: a wait told its stop, by a signal or for an event, and since then no accepted request let it go on and no wait told its end. This holds for all requests of a run, up to the last one of quit.", "quantifier": "all command lines of strace.py and gdb.py, all lines typed, all kernels (every reply to every call) that tell the truth about the process asked about, all lengths of the run, all numbers of processes, all failing requests and interrupts", "why_tests_cant": "A request to a running process fails, or not, depending on how far the process has got at that moment; the orders of stops, forks, ends, failures and interrupts of several processes that lead to one are far too many to try, and the failure is then often taken for the end of the process.", "anchors": ["ptrace/debugger/debugger.py:74-185", "ptrace/debugger/process.py:291-399", "ptrace/debugger/process.py:461-490", "ptrace/debugger/process.py:726-760", "strace.py:180-285", "gdb.py:181-206", "gdb.py:558-640", "gdb.py:754-835"]}
{"id": "C146", "title": "The attribute is_stopped tells whether a process is stopped", "statement": "After any calls of the library, a registered process that counts as running has is_stopped set exactly if it is stopped: a wait told its stop, by a signal or for an event, and since then no accepted request let it go on and no wait told its end. Hence terminate and quit kill by PTRACE_CONT only processes that are stopped, and by a signal those that are running.", "quantifier": "all sequences of method calls, all kernels (every reply to every call) that tell the truth about the process asked about, all exceptions and failing requests, all numbers of processes", "why_tests_cant": "The attribute is set and cleared in different methods and survives exceptions; whether it is right depends on the whole history of stops, requests, failures and interrupts of each process.", "anchors": ["ptrace/debugger/process.py:152-169", "ptrace/debugger/process.py:312-332", "ptrace/debugger/process.py:397-413", "ptrace/debugger/process.py:461-476", "ptrace/debugger/process.py:721-724", "ptrace/debugger/debugger.py:74-114"]}
{"id": "C147", "title": "The debugger does not run into errors of its own", "statement": "Whatever the kernel replies and in whatever state the debugger is, the exceptions that leave the calls of the library, strace.py and gdb.py tell of something outside the debugger: a refused request (PtraceError), a failed system call (OSError), Control-C or an event of a process. No KeyError, IndexError, TypeError or AttributeError of the debugger itself is raised.", "quantifier": "for all kernels that do not give the number 0 to a new process, all sequences of calls of the library, all calls, all runs of strace.py and all sessions of gdb.py (any lines typed, any Control-C) from a debugger without processes", "why_tests_cant": "A test sees the exceptions of the few replies of the kernel that it provokes; `raise None`, `None.syscall`, a dictionary without the key and an empty list of processes would only show for certain orders of events and failures.", "anchors": ["ptrace/debugger/debugger.py:74-102", "ptrace/debugger/debugger.py:104-114", "ptrace/debugger/debugger.py:116-223", "ptrace/debugger/process.py:312-413", "ptrace/debugger/syscall_state.py:13-48", "strace.py:158-275", "gdb.py:558-564", "gdb.py:707-884"]}
{"id": "C148", "title": "Signals are sent to the debugger's own processes only", "statement": "kill(2), which unlike the ptrace requests works for every process, is used only with the number of a process that the debugger has at this moment, registered under this number; and it is never used on behalf of a process whose end the kernel has told, as the number may belong to somebody else by then. strace.py sends SIGKILL only, gdb.py SIGINT and SIGKILL only.", "quantifier": "all command lines of strace.py and gdb.py, all lines typed, all kernels (every reply to every call), all numbers of processes, all interrupts and exceptions; for the library all sequences of method calls", "why_tests_cant": "Whether a number is still one's own matters only in the rare runs in which processes end or are released while quit or Control-C walks over a list of processes that was taken before; the orders of ends, interrupts and failures that could lead to a signal to a stranger cannot be enumerated.", "anchors": ["ptrace/debugger/process.py:291-332", "ptrace/debugger/debugger.py:104-114", "gdb.py:754-774", "gdb.py:776-784", "strace.py:158-275"]}
{"id": "C149", "title": "The end of a process is never overlooked", "statement": "When the kernel tells the end of a registered process - a wait returns its number with a status of an exit or of a death by a signal, or a wait for it fails with ECHILD - then the object counts as not running from then on and for ever, whichever function waited, for which process it waited, whether it polled or blocked, and whatever is raised afterwards. The same holds of strace.py and of gdb.py from the command line to the end.", "quantifier": "all sequences of method calls, all command lines of strace.py and gdb.py, all lines typed, all kernels (every reply to every call), all numbers of processes, all interrupts and exceptions", "why_tests_cant": "The kernel tells the end once only; a status that is lost on some path, by an exception, a poll or a wait for another process, shows only in runs in which the process ends just there.", "anchors": ["ptrace/debugger/debugger.py:116-185", "ptrace/debugger/process.py:291-399", "strace.py:158-275", "gdb.py:786-847"]}
