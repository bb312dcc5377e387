# Formal model of python-ptrace

Lean 4 project in `lean/`. Layout:

| directory | content |
|---|---|
| `Verif/Model/*.lean` | executable model, function by function; every definition cites file and lines of `/repo` |
| `Verif/Spec/*.lean`  | small independent specifications used by the property statements (no model helpers) |
| `Verif/Lemmas/*.lean`| helper lemmas |
| `Verif/Props/*.lean` | the property theorems only (one file per area), each followed by a concrete non-trivial `example` |

`MANIFEST.json` maps properties (`properties.jsonl`) to theorem names. `seeded/LOG.jsonl` records the
mutation tests.

## Trusted base

* Lean 4.33.0 kernel. Every theorem depends at most on `propext`, `Classical.choice`, `Quot.sound`
  (checked with `#print axioms`). No own axioms, no `sorry`, no `native_decide`, no `bv_decide`.
* The reading of the Python code as Lean functions (citations in every definition). The code is not
  executed; the only tie between the theorems and the code is the faithfulness of the model.
* Python built-ins that are modelled by hand (`Verif/Model/Py.lean` and friends): integers are
  unbounded `Int`/`Nat`; `bytes` are `List Byte` with `Byte = Fin 256`; text is `List Char`; slices,
  `find`, `split`, `join`, `strip`, `%`-formatting, dict (insertion ordered association list), list.
* Exceptions are values of type `Exc`; effects are a state monad `Py σ α = σ → Except Exc α × σ`, so the
  state reached *before* an exception is kept (needed for crash-point properties).
* The kernel: memory is `Nat → Byte` plus readability predicates, `PTRACE_PEEK/POKE` act on aligned
  words in native byte order, and *any* request may fail (fault schedule / oracle stream is universally
  quantified). Process events are an arbitrary oracle: theorems about the debugger hold for every
  sequence of kernel replies. Addresses are natural numbers; there is no wrap-around at 2^64 (an
  address ≥ 2^64 simply is never readable).
* `tools/gen_tables.py`, which copies the dictionaries of `/repo/ptrace/syscall` into `Model/Tables.lean` and the numbers of the kernel
  headers into `Spec/KernelTables.lean` (both committed; the script is not run by the build).
* The part of Python's library `optparse` that reads command lines (`Model/CmdLine`), and `re.compile` as a predicate.
* Loops that depend on the outside world (waiting) take a fuel argument; running out of fuel is the
  explicit outcome `Exc.diverge`, and the safety theorems hold for every fuel.

Not modelled: `__del__` finalisers except those of breakpoints and of an unused process (`Model/Life`), logging output except where a property
is about text, BSD specific paths other than memory blocks, the end of a process, requests, registers and system calls (`Model/Bsd`, `Model/BsdLife`, `Model/BsdWrap`, `Model/BsdCall`), the decoder of the disassembler (a parameter), floating point sleeps,
asynchronous `KeyboardInterrupt` at arbitrary bytecodes (it is modelled at blocking waits only),
concurrent modification of tracee memory by other running threads.

## Properties

Status words: *prove* = full statement; *partial* = the code violates the statement, a refutation with
a concrete witness plus the strongest true part (`_partial`) are given.

| id | model | approach |
|---|---|---|
| C01 | `Model/Ctypes` | `Int.land` with 2^n-1 is `emod`; range, congruence, uniqueness |
| C02 | `Model/Ctypes` | digits base 256, both byte orders, induction on the width |
| C03 | `Model/Ctypes` | hexadecimal printing/parsing round trip by strong induction |
| C04 | `Model/Ctypes`, `Model/Socket` | true on little endian; refuted on big endian, *partial* |
| C05 | `Model/Memory` | loop invariant of `_readBytes`, fault schedule quantified |
| C06 C07 C08 | `Model/Memory` | loop invariant of `writeBytes`: memory = overwrite of a prefix |
| C09 C10 | `Model/Memory` | arbitrary `/proc/pid/mem` replies; C10 refuted by a short reply, *partial* |
| C11 C12 C13 | `Model/Memory` | invariant of the chunk loop; C12 refuted, *partial* |
| C14 C15 | `Model/Search` | equivalence with one-pass scan; C15 refuted for the empty pattern, *partial* |
| C16 C17 C18 | `Model/Regs` | bit arithmetic on `Nat`/`Int`; tables checked completely; C17, C18 refuted for shifted entries, *partial* |
| C19 C20 C21 | `Model/Breakpoint` | invariant "memory = original overlaid with traps" over histories; C20 refuted for overlapping breakpoints, *partial* |
| C22 C23 C24 | `Model/Status` | arithmetic of wait statuses; C24 refuted, *partial* |
| C25–C37, C70 | `Model/Debugger` | state machine with kernel oracle; invariants proved compositionally for every function and lifted to histories; C25, C27, C28, C29, C32, C34, C35, C36 refuted in corner cases, *partial*. `C29_told`, `C29_strace`, `C29_gdb` (no PTRACE_DETACH after a wait told the end, `DetachesLiving` in `Spec/Spares.lean`) by the invariant `Mourned` of C148 |
| C38 | `Model/Syscall` | alternation by induction over all histories (events of every process, library calls, failures) |
| C39 C40 | `Model/Strace` | loop over events on top of the debugger machine; requests and exit code as functions of the list of events; C39 refuted (lost new process event), C40 refuted for killed programs, *partial* |
| C41 C42 | `Model/Strace` | decision logic; C42 refuted, *partial* |
| C43 C44 C46 | `Model/Gdb` | main loop and commands on top of the debugger machine; invariant over every history of typed lines (kept signals are undelivered stops, the current process is registered); line semantics for any command interpreter; C43 refuted for `signal`, *partial*. Commands that only inspect a process are one request with an arbitrary reply |
| C45 | `Model/Hexdump` | row loop over an arbitrary reader, dump relation; refuted for short replies of `/proc/pid/mem`, *partial* |
| C47 C48 | `Model/Expr` | character level model of the regular expressions and substitutions, `eval` is a parameter; C47: evaluators that agree on arithmetic text cannot be told apart; C48: lists of items, of `eval` only the value of decimal numbers is assumed |
| C49 | `Model/Signals` | association lists |
| C50–C54 | `Model/Proc` | print/parse round trips against relations "the kernel prints this text"; files are text with universal newlines, white space, `repr` are parameters; one snapshot of `/proc`. C50, C51, C52 refuted for carriage returns (translated to newlines), C53 for a variable without `=` (`TypeError`), C54 for another process with an undecodable command line, *partial* |
| C55–C58 | `Model/Format` | induction over bit tables; names and values compared with separate tables of kernel constants (`Spec/Format`); sets as arrays of words in native byte order; result text parsed back. C56 refuted for `O_TMPFILE`, `O_SYNC` (shown for a part of their bits) and for ARM (other bit order), C57 for descriptors from 1024 on and for big endian, *partial* |
| C59 | `Model/Binding` | errno machine for both bindings (libc's and ctypes' copy of `errno`, swapped around a call); refuted for the C extension (the number of every error is 0; words from 2^63 on overflow) and for a libc that does not reset `errno` before a peek, *partial* |
| C60 C61 | `Model/Tools` | decision logic; path normalisation compared with a walk through a file system with links. C61 refuted for a link before `..` (text simplification), *partial* |
| C62–C64 | `Model/Child` | descriptor table machine, step list of the child with all failure points, retry loop over any call. C62 refuted for descriptors from `MAXFD` on and for `pass_fds` naming the number of the error pipe, C63 for failures outside the reporting `try` (`PTRACE_TRACEME`, `set_inheritable`) and for a pipe that gets number 1 or 2, *partial* |
| C65 | `Model/Backtrace` | frame chain given by iterating the saved frame pointer; the loop reads any tracer that answers from a fixed view of the stack. Refuted when a frame cannot be read (the frames found before it are lost), *partial* |
| C66 C71 C72 | `Model/Tables` (generated from `/repo` by `tools/gen_tables.py`), `Model/Call`, `Spec/KernelTables` (generated from the headers of linux-libc-dev 6.8) | `decide +kernel` over the complete tables, with lemmas about sorted tables lifting the checks to every entry. C71 refuted for x86_64 number 283 and 54 i386 names, *partial* |
| C73 C74 | `Model/Call` | words read for any memory; texts made by arbitrary functions before and after the call. C73 refuted from sub-call 18 on (`KeyError`), C74 for arrays (`int[2]`) shown on entry too, *partial* |
| C67 C68 | `Model/Format` | list lemmas; the array loop over any tracer state that keeps an invariant. C68 refuted for exactly `max` strings (note shown) and `max` = 0, *partial* |
| C69 | `Model/Fault` | the process answers by arbitrary functions, with `PtraceError` where it fails; decision logic for all of them. Refuted for instructions without operands (`IndexError`), the end of the stack, and `MOVS` without siginfo (`TypeError`), *partial* |
| C75 C78 | `Model/Fault` | the regular expressions are hand-made matchers; instructions of Intel syntax described in `Spec/Fault`. Refuted for `TEST`, `MOVS` with operands, `SCAS`, `QWORD`, `DQWORD`, and quotient overflow, *partial* |
| C76 | `Model/Fault` | bytes of the access against bytes of each mapping; refuted without a size, *partial* |
| C77 | `Model/Fault` | whole words of the operand text; refuted for R8–R15, *partial* |
| C79 C80 | `Model/Disasm` on `Model/Breakpoint` | the decoder is a parameter; a listing is a chain of instructions that their own bytes determine (`Spec/Disasm`). Induction over the lines with the invariant of C20. Refuted for breakpoints inside instructions, long instructions, the end of a range, *partial* |
| C81 C82 C83 | `Model/Disasm` | on the invariant of C20 and the outcome lemmas of C19/C21; the program between continue and stop is an arbitrary state transformer. Refuted: second delete, traps in the middle, other processes, other traps while stepping, *partial* |
| C84 C85 | `Model/Repr`, `Model/ArgText` | `repr` and `os.fsdecode` are modelled character by character (`str.isprintable` is a parameter, true of characters only); a separate reader of Python literals and a UTF-8/surrogateescape encoder (`Spec/Repr`) get the bytes back, by induction over the text. On C11/C12 for memory; for a paged address space and, without dots, for any kernel in `Props/ShortText`. C84 (a text with dots that is not a beginning) and C85 refuted for short reads, *partial* |
| C86 C87 | `Model/ArgText` | layouts computed as ctypes does, compared with the kernel's (`Spec/ArgText.kernelStructs`); a short buffer is continued by arbitrary memory of the tracer. Refuted for short reads, `rlimit` from half of the range on, `user_desc` on 64 bits; C87 for abstract sockets and for bytes behind the length, little endian only, *partial* |
| C88 | `Model/ArgText` | tables compared with the kernel's over all entries. Refuted for `fcntl` from 5 on, resource 15, options of other levels, `SOCK_NONBLOCK`, *partial* |
| C89 | `Model/ArgText` | by type, for arbitrary readers with arbitrary failures. Refuted for `size_t`, `long`, `uid_t` from 2^31 on and for `unsigned int` with higher bits, *partial* |
| C90 C91 C92 C94 | `Model/Wrappers` on `Model/Binding` | the memory of the tracer is a function from addresses to bytes; objects are addresses, layouts computed as ctypes does; what the kernel copies where is a hypothesis written after the kernel's headers (`Spec/Wrappers`), met by a concrete machine for each CPU. Tables by evaluation, everything else for all values and places. C91 refuted for users from 65536 on and for times on 64 bits, C92 for 64-bit big endian and for the size of the object, C94 for ARM, *partial* |
| C93 | `Model/Wrappers` on C59 | request by request, for every kernel answer |
| C95 | `Model/GdbCmd` (`dispatch`) | against a manual (`Spec/GdbCmd`): every use is run, by cases over the 30 commands, for every argument; converse branch by branch. Refuted for prefixes of switch, breakpoints and signals and for quit after a semicolon, *partial* |
| C96 C97 C99 | `Model/GdbCmd`, on C16, C48 | `parseInteger`, `setreg` and `dumpCode` are parameters or the models of C16 and C48; printed lines are part of the state. C96 refuted for a division by zero, C97 for sub-registers, *partial* |
| C98 | `Model/GdbCmd`, `Lemmas/Xray`, on C14 | the generators of `_xray` and `getPointers` are loops with a body run at each yield; induction over the remaining bytes; `eval` of a literal is a hypothesis. Refuted for overlapping pointers, unreadable mappings, empty terms and semicolons, *partial* |
| C100 | `Model/Dump`, on C16, C42, C78 | reads of words, the stack pointer, mappings and the backtrace are parameters; printed lines are part of the state; induction over indexes. Digits and `gcore` refuted |
| C101 C102 | `Model/ProcInfo`, on C50, C51 | a file is missing or has a text as the kernel prints it (`Spec/ProcInfo`); times are integers of microseconds, the local offset of 1970 is a parameter. Refuted for variables without an equals sign, states, summer time, timestamps and `isTraced`, *partial* |
| C103 C104 | `Model/Log`, on C37, C60 | a log is a list of records; the text of `format_exception`, class and text of exceptions are parameters; bits by `testBit`. Refuted for the missing backtrace, derived classes, other levels, wide terminals and profiled functions that raise, *partial* |
| C105 | `Spec/Arith`, on C47, C48 | grammar of Python expressions as an inductive relation over an arbitrary alphabet; a recursive descent parser is proved to find the only reading, the items typed are translated to the text evaluated. Refuted for leading zeros, *partial* |
| C106 | `Model/Report`, on C69, C78 | the analysis is the model of C69 and C78; texts against `Spec/Report`, printed lines are part of the state. Refuted for stack overflows, *partial* |
| C107 | `Model/Lines`, on C38 to C41 | the loop of `Model/Strace` again with its output; proved to be that loop when the output is removed, then by induction over its turns what is printed. Refuted for the size of the environment, *partial* |
| C108 | `Model/Decode` | the generator run to its end over any C function; yields are slots of the reused buffer. Induction over the batches: read at once it is the sweep over the code, read later refuted, *partial* |
| C109, C110 | `Model/Life`, on `Model/Breakpoint` | the histories of C20 followed by detach, finalisers with dead weak references, `removeBreakpoint` with and without other references, fork and `execve`. Refuted while breakpoints are listed, *partial* |
| C111, C112 | `Model/Cpu`, on `Model/Regs` | constants computed at import as functions of what the interpreter says about the machine; strings unbounded, case analysis by first difference. The processor manuals are `Spec/Cpu`. Refuted for three machine names, the stack pointer of ARM and a 32-bit Python on x86-64, *partial* |
| C113 | `Model/Debugger` | the log of system calls of one wait is rounds of silent polls and pauses, then silent polls, then the reported one, by induction over the rounds; starvation by induction over the events served. Fairness refuted, *partial* |
| C114 | `Model/Disasm` (commands), `Model/Breakpoint` | an arbitrary processor is given by what an instruction does and which bytes it uses (`Spec/Machine`); sessions are built from the model's `gdbBreak`, `gdbDelete`, `gdbTrap`, `stepTo` and runs of the processor on the patched memory; proved by simulation against the run without a debugger, in both directions (states at prompts, no breakpoint missed). Refuted for programs that read their own code, for `stepi` and for `step` on a breakpoint, *partial* |
| C115 | `Model/Itrace.lean`: both loops of `examples/itrace.py`, its `runDebugger` and `_main`; `print` adds a line | `Spec/Itrace.lean` on the log: requests that act on a process, addresses read, pairing; induction on both loops with a relation that is closed under composition; witnesses for the default of `-n`, for "died with signal" and for the exit status |
| C116 | `Model/Bsd.lean`: `ptrace_io` with a kernel that may move a part of the block, `readBytes`, `writeBytes`, `readCString` of the `HAS_PTRACE_IO` branches | the same specification of memory as C01 to C04; induction on the loop; witnesses for short transfers and for addresses that do not fit a pointer |
| C117 | `Model/BsdLife.lean`: `_wait_event_pid`, `processStatus`, `processExited`, `waitExit` with the recursion of the BSD branch | `Spec/Bsd.lean` says which event an answer means; an invariant of the registration kept by both mutually recursive loops, induction on fuel; witnesses for the blocking second wait and for the lost code |
| C118 | `Model/Codegen.lean`: the whole of `SYSCALL_PROTOTYPES.codegen.py`; the header's text is the argument, both regular expressions are written out | `Spec/Codegen.lean` says what a header declares without scanning it; lemmas that the first match is the declared one (the marks cannot overlap a border), that the name is the longest end without blank and star, that the sorted dictionary holds the last declarations; witnesses for names that end like a type |
| C119 | `Model/BsdWrap.lean`: the BSD branches of `func.py`, `struct reg` of both systems, `getregs` with and without `PTRACE_GETREGS`; memory and binding of `Model/Wrappers` | `Spec/BsdWrap.lean` has the numbers and the layouts of the kernels (from their headers, typed in); every offset checked; for OpenBSD/amd64 the bytes behind the object are followed |
| C120 | `Model/BsdCall.lean`: `PtraceSyscall` on BSD; `Model/FreebsdTable.lean` is generated from `freebsd_syscall.py` | `Spec/BsdCall.lean` says where the kernel finds arguments and how the carry flag marks errors; C58 for the text of results; *partial* |
| C121 | `Model/MemBind.lean`: the word loops of `Model/Memory` on top of `Model/Binding` instead of the abstract kernel | `Spec/MemBind.lean` computes the memory of the process from the granted requests; a simulation (same results, same requests, same memory) by induction over the loops carries C05–C08 over; *partial*, witnesses for musl, the C extension and addresses beyond the last word |
| C122 | `Model/Strace.lean`, `Model/Debugger.lean` (no new model) | `Spec/Pass.lean` reads the reported stops off the replies of `waitpid` and the delivered signals off the requests; every wait that ends normally is one `waitpid` entry whose stop is the event, by induction over the waits; `use_sysgood` is an invariant; *partial*, witnesses for a real `SIGTRAP` and for a signal that arrives while attaching |
| C123 | `Model/Classes.lean` (tables of `strace.py`), `Model/Strace.lean`, `Model/Call.lean` | `Spec/Classes.lean` lists the classes of the manual pages; the sets computed from all prototypes, and the seven lists of socket calls against the whole tables, are compared in the kernel, then lifted to every register contents; *partial*, exact list of missed calls, witnesses `openat2`, `mount`, `accept4` and a sub-call of `socketcall` |
| C124 | `Model/Session.lean` (commands of `gdb.py` at a stop on one state of memory, registers, breakpoints and output), built from `Model/Dump`, `Hexdump`, `ProcInfo`, `Disasm`, `Expr`, `GdbCmd` | `Spec/Session.lean` says what is left alone; every command keeps a preorder of states (`Lemmas/Keeps`, `Lemmas/Session`), lifted to lines and sessions by induction; the invariant of C20 with breakpoints of one byte is carried through. Commands that resume the process are a parameter and excluded. `_partial`: disassembler and PowerPC; overlapping breakpoints refute it |
| C125 | `Model/Strace.lean`, `Model/Syscall.lean`, `Model/Debugger.lean` as they are (`straceMain`) | `Spec/Follow.lean` describes a program of one process as a list of deeds, the stops `ptrace(2)` promises for it and the requests of a tracer that follows it, without the model; the log of the model is compared with that list. One lemma per kind of stop (`Props/Follow`), induction on the program. `_partial`: one process, a kernel that refuses nothing; a failed `execve` without `--trace-exec` is refuted with a witness |
| C126 | `Model/Debugger.lean` as it is (`quit`, `terminate`, `waitExit`, `detach`) | `Spec/Quit.lean`: the fate of a killed process (any signals on their way, then the end) and the requests to leave a process, as lists. Induction on the pending signals (`left_waitExit`) and on the registry (`quitLoop_left`); the log of the model is compared with the list. `_partial`: processes attached, no ptrace event on its way; events, the uncaught `OSError` of `os.kill` and Control-C while `quit` waits are refuted with witnesses |
| C127 | `Model/Simple.lean` | `Spec/Simple.lean`: one process, what it does next, the requests of the session as a list. From the lemmas of C126 and one about `addProcess` (`add_step`). `_partial`: the first stop is SIGTRAP or SIGSTOP; the loss of the signal of an attached process is refuted with a witness |
| C128 | `Model/Strace.lean`, `Model/Syscall.lean`, `Model/Debugger.lean` | `Spec/Tree.lean`: a tree of processes with the stops of each, an automaton that says what a tracer does at a stop, a kernel that lets them run in any order. An invariant (`Between`) says how many stops of each process are done; one turn of strace.py keeps it and moves one process on (`tree_turn`, from `wait_any` for the polling, `tree_fork`, `tree_exit`); the stops that are left bound the number of turns. `_partial`: the kernel refuses nothing, a new process stops before it ends, `execve` does not fail without events; the exit code and the stillborn child are refuted with witnesses |
| C129 | `Model/GdbMain.lean` (`runDebugger`, `main`), `Model/Gdb.lean` | `Spec/Watch.lean`: the moves of a user, the requests of a session as a function of the moves and of the signals of the program, a kernel that makes one stop after each request to go on. Induction over the typed lines; at the prompt the process is stopped and the pending signal is what gdb.py remembers (`AtPrompt`). The loops are those of C43, the start is the one of C125. Refuted with `--trace-exec` (waits for a process that was not let go on) and for two processes (a running process is taken for dead and forgotten). Out of scope: commands that step or edit, see C24, C82, C96. |
| C130 | `Model/StraceMain.lean` (`_main`, `createProcess` and `createChild` with their lines), `Model/Lines.lean` | `Spec/Printed.lean`: the lines of a program as a relation on its deeds (`Spec/Follow`), with the line formats of C107. Composition of C125 (which stop comes when) and C107 (what a turn prints): the call object is identified by the number of requests before it, so that the line at the end is shown to belong to the call that started. Induction on the program. Refuted for a failed `execve` without events. Parameters: the texts of calls, results and signals (C84 to C92, C106), and of exceptions |
| C131 | `Model/StraceMain.lean`, `Model/Lines.lean`, `Model/Strace.lean` | `Spec/TreeLines.lean`: what comes of a stop (`Block`), stated on the stops of each process (`Spec/Tree`) and the log alone: the blocks are in the order in which the log has the stops told, and those of one process, filtered out, are those of its stops. Composition of C128 (which turn treats which stop, `Turn` in `Lemmas/Tree3`) with C107 (what a turn prints); the invariant `Said` holds, for each process in a call, that its call object is the one made at the stop the call started with. Induction on the turns. The number of lines follows by regrouping the blocks by process. Refuted for a process killed before its first stop |
| C132 | `Model/CallText.lean` (`PtraceSyscall.enter`, `exit`, `format`, `result_text` on the registers and the memory of two stops, as a `LineView` for the loop of `strace.py`), `Model/Call.lean`, `Model/ArgText.lean`, `Model/Format.lean` | `Spec/CallText.lean`: what the text of an argument has to show of a memory (`IntegerText`, `ConstantText`, `FileText`, `StructText`), which arguments are lost, the shape of the call (`CallShown`), the registers of the conventions (`Spec/Call`). `text_at_end` follows the text of one argument through `enter`, `format`, `exit` and `format` for any functions that make texts before and after the call; composed with C66 (arguments), C67 (shape), C58 (result), C84, C86, C88, C89 (texts), C73 (socketcall) into `C132_end_partial`, `C132_start_partial`, `C132_socket_partial`, `C132_unknown`, `C132_result`; with C107 into `C132_line_partial` and with C131 into `C132_tree_partial` (`procBlocks_at`: the block of stop `i`). Simplified: every text is made from the memory at the stop, requests for one text do not change the replies for the next. `C132_refuted`: a kernel that replies two bytes at a time. |
| C133 | `Model/GdbMain.lean` (`gdbMain`, `gdbLines`), `Model/Gdb.lean` (all commands, `mainLoop`), `Model/Step.lean` | `Spec/Prompt.lean`: a program as a `Story` (what each wait finds and the answer to each look, both depending on all requests so far, so that the program may react to what it is given), commands, what is known at the prompt (`Table`), each command as the requests it makes and how it ends (`act`), lines, what is typed, the session (`talk`). Simulation (`Lemmas/Prompt.lean`): `Sits` relates the state of gdb.py at a command to a `Table`, `Leads` its outcome to a `Result`; one lemma per command, then lines (`line_leads`), Control-C (`interrupt_leads`) and induction on the list of inputs (`talk_run`) give `C133_run_partial`. On the side of the specification two invariants of `Table` (`InOrder`, `AllPassed`), carried back to the log of the model by `run_made`: `C133_order_partial`, `C133_delivery_partial`. `storyKern` is a kernel for any story. Five refutations by evaluation of the model on such kernels. |
| C134 | `Model/Strace.lean`, `Model/Debugger.lean`, `Model/Syscall.lean` (as C125) | `Spec/React.lean`: a `Program` is a function from the signals it was given so far to its next stop and registers; `Performs` says that a kernel runs it; `Program.Does` says what it does if every signal that arrives reaches it. `Lemmas/Local.lean` proves, function by function for all of strace.py, that a run depends on the kernel only through its replies to the requests of that run (`local_strace`). The kernel of a reacting program is compared with one that behaves as if the process had been given what it gets alone; C125 describes the run on that one, it hands over exactly these signals, so both kernels agree along it and the runs are equal: `C134_transparent_partial`. `C134_trap_refuted`: a program that is sent signal 5. |
| C135 | `Model/Strace.lean`, `Model/Debugger.lean`, `Model/Syscall.lean` (as C128) | `Spec/Open.lean`: a `World` says in which stop a process is after any sequence of requests, `Kept` says that in this run the kernel kept what `ptrace(2)` guarantees to a tracer that did what it should so far (a request for a process that has not stopped may be refused; nothing is assumed about what the kernel would have done in other runs), `Attends` compares what was done with the stops told so far. By induction over the prefixes of the log (`Meets` is the invariant): up to a moment the kernel cannot be told from one in which all processes end soon after it (`untilNow`), C128 describes the run on that kernel, and by locality (`local_strace`) and monotonicity in the fuel (`deep_strace`, `Lemmas/Fuel.lean`) the next request of the real run is the next one of that run: `C135_open_partial`. `C135_ends_partial`: if the processes make few stops and the kernel is not silent for long (`Wakes`), the kernel that ends all processes after the whole run satisfies the fuel bound of C128, and by locality both runs are the same. The example is a world in which every process starts new ones without end. `C135_killed_refuted`: a stopped process is killed from elsewhere. |
| C136 | `Model/StraceMain.lean`, `Model/Lines.lean` (as C131) | `Spec/OpenLines.lean`: `OpenBlocks` says the blocks of lines of C131 for the stops told so far (`stopsMade`). `Lemmas/LocalOut.lean`: the output, too, depends on the kernel only through its replies (`localOut_strace`). `open_main_out`: for a tree that ends and any number of turns, enough or not, the blocks of the stops told have been printed (induction over the turns; waiting in vain prints nothing, `wait_some`). The kernel until now, after which all processes end soon (C135), gives the same run with the same number of turns: `C136_lines_partial`; with C132 `C136_text_partial`. |
| C137 | `Model/CallText.lean`, `Model/Call.lean`, `Model/Tables.lean` (as C71, C132, C136) | `Spec/CallNames.lean`: `Names` has for each of five headers of the kernel the numbers with another name and without a name in the table of python-ptrace; `Names.Shown` says under which name a call appears; `LineNamed` where the name is in a line. `Props/CallNames.lean`: the tables are compared once (`sorts`, by evaluation in the kernel of Lean: these are all entries, not a sample), the lines for all registers and memories by the form of `FunctionCall.format` (`C137_name`, `C137_line`), whole runs by C136 (`C137_open_partial`). `C137_refuted`: wrong and missing names; `C137_compat_refuted`: programs of 32 bits on x86-64. |
| C138 | as C135 | `Spec/Free.lean`: `Nature` gives what each process has come to after all that the processes did; `Free` is the system without a tracer, as steps: a process that has come to something goes on and is given the signal that arrived (`Place.gets`); `actsIn` reads from a run who went on with what; `Looks` are the requests that change nothing. `Props/Free.lean`: by induction over the run, from C135: the processes have gone on from just the stops that were told and dealt with (`AsAlone`), and the signal given is the one of the last stop (`history_last`, `oneStop_go`). `C138_ends_partial`: a bound for the free system bounds the stops under strace.py, then C135. `kept_of_check` checks the promises of a kernel in a concrete run, for the examples. `C138_trap_refuted`: signal 5. |
| C139 | `Model/CmdLine.lean`: the tables of options, `parseOptions` of both programs, `processOptions`, the choice of `createProcess`, `setupLog`; and of Python's `optparse` what they use (abbreviations, letters run together, values, numbers with prefix) | `Spec/CmdLine.lean`: a manual (names, letters, what a switch takes), `CmdWords` and `CmdLine` as an inductive relation between settings, program and words, with no reference to how it is read. `Props/CmdLine.lean`: `Agrees` (table and manual, checked by `decide`), forward by induction over the relation (`process_line`), backward by induction over the words (`process_back`), so acceptance is exact (`C139_options`, `C139_only`). Decimal texts: `parseNum_decimal`. Refutations with concrete lines. |
| C140 | `Model/Debugger` (`runOp` and the methods of a process) | `Spec/Method.lean`: `theRequest`, the request for a call of a method, `Answers`, what the caller sees, `afterwards`, what the object says. `Props/Method.lean`: by cases over the methods and the answers of the kernel. `C140_again_refuted`: a refused detach cannot be repeated. |
| C141 | `Model/Program` (`straceProgram`: `parseOptions`, `setupDebugger`, `createProcess`, `syscall_options`, `_main`, `main` in one piece) | `Spec/Program.lean`: the settings read as wishes: `WishedText`, `WishedFront`, `AskedFor` (which names), `Tracee` (which process), `WishedFile` | The dictionary of options is compared with the settings switch by switch (C139), `C41_shown` turns the filter into `AskedFor`, `C136_lines_partial` gives the blocks, C137 and C132 the names and texts; both places of a line (start and end of a call) in both directions. Trusted: `re`, `open`, `fork`/`exec` as parameters |
| C142 | `Model/GdbProgram` (`gdbProgram`: options, `setupDebugger`, `runDebugger`, `main`, `quit` in one piece) | `Spec/GdbProgram.lean`: `Dies`, `Leaves` (how a session is left, along the same story as C133) | C139 for the options, C133 for the session, then `quit` is followed by induction over `Dies`. `Lemmas/GdbKeep.lean`: the origin of a process object is an invariant of every command of gdb.py, for every kernel. *Partial* as C133; `C142_children_refuted`: children of an attached process are killed under `--fork` |
| C143 | every function of `Model/Debugger`, `Model/Strace`, `Model/Gdb` that makes a call, and the programs `straceProgram`, `gdbProgram` | `Spec/Minds.lean`: `Minds` (each call of the log names a process asked for, or one told of in an earlier entry), `AttachTyped`, `UserNames` | an invariant of the state (`Minded`: log, objects, parents, the dictionary and the list of processes) kept by every function, on success and on every exception, for every kernel (`Lemmas/Minds.lean`, `Lemmas/Minds2.lean`) |
| C144 | `Model/Debugger` (every place that sets `running`: `notRunning`, `terminate`, `waitExit`, `processStatus`, `waitExcept`), `Model/Strace`, `Model/Program` | `Spec/Ends.lean`: `TellsEnd` (which reply tells an end), `EndTold` (told of this object, not of an earlier one with the number) | an invariant of the state kept by every function on success and on every exception, for every kernel (`Lemmas/Ends.lean`). `C144_step_refuted`: after an interrupted `stepi`, `ESRCH` is taken for the end of a process that is running. gdb.py: `Spec/GdbEnds.lean` (`Denied`, `ErrTold`), `Lemmas/GdbEnds.lean` (the same invariant, with refused requests as a second reason), `C144_gdb_refuted` (a second `cont` while one process is running) |
| C145 | `Model/Debugger` (`ptraceCall` logs each request with the registry at the call), `Model/Strace`, `Model/Program` | `Spec/Asks.lean`: `AtRest` (stop told, since then not let go, no end told), `AsksStopped`, and the assumptions `TruthfulLog`, `PatientLog`; none mentions the flag `is_stopped` | an invariant that ties `is_stopped` to the log, kept by every function strace.py uses, on success and on every exception (`Lemmas/Asks.lean`, `Asks2`, `Asks3`); for gdb.py with one process at a time (`SoloLog` of `Spec/AsksGdb.lean`) the same invariant through the prompt (`Lemmas/AsksGdb.lean`, `AsksGdb2`). `C145_first_refuted`, `C145_detach_refuted`, `C145_gdb_refuted`, `C145_cont_refuted`: four ways in which a running process is asked |
| C146 (the documentation, `process.py:156`: "Sometimes, is_stopped value is wrong") | `Model/Debugger` (every place that sets `isStopped`: `freshProc`, `procCont`, `procSyscall`, `processStatus`; and those that do not: `procSingleStep`, `ptraceEvent`) | `Spec/Stopped.lean`: `Regularly` (which calls), `FlagTrue`, `FlagFull`, `FlagSignal`, on the log by `AtRest` and `AtSignal` of `Spec/Asks.lean` | the invariant of C145 without its part about requests, kept by every call of the library (`Lemmas/Stopped.lean`); `C146_step_refuted`, `C146_first_refuted`, `C146_event_refuted` |
| C147 | `Model/Debugger.lean`, `Model/Syscall.lean`, `Model/Strace.lean`, `Model/Gdb.lean`, `Model/GdbMain.lean` as they are | `Spec/Errors.lean`: which exceptions tell of something outside the debugger, and a log in which the kernel tells of a registered process as new. One lemma for each function (`CleanRun`: old objects are kept, exceptions come from outside, a new process that is raised has a parent), induction on the fuel of the waits, on the processes of `quit` and on the turns of the loop; `waitAny_out` gives that a wait with a process does not raise IndexError, and that a blocking wait never returns `None`. For gdb.py the same for each command (`GClean`), with `Ready`/`Prompt` of C43 for the current process, induction on the commands of a line and on the lines; `Spec/GdbErrors.lean`: an `attach` was typed, an argument is the number of a registered process. `_partial`: the excepted cases are stated in the theorems, each refuted with a witness |
| C148 | `Model/Debugger` (`procKill`, `terminate`, `quitLoop` over a copy of the list, `detach`), `Model/Strace`, `Model/Gdb` (`interruptSend`), `Model/Program`, `Model/GdbProgram` | `Spec/Kills.lean`: `KillsOwn` on the log and the registry at each call; `ReachKill` for the library. The steps of `Lemmas/Debugger.lean` with labels that allow kill(2) for registered processes only; over the loop of `quit`, a process that is still to come is registered or not running (`Lemmas/Kills.lean`). `C148_detached_refuted`: `terminate` after `detach`. `Spec/Spares.lean`: `SparesEnded`, no signal after a wait told the end; invariant `Mourned` (objects whose end was told are not running) over every function, with the reply of a wait and `_notRunning` taken together (`Lemmas/Spares.lean`, `Lemmas/GdbSpares.lean`). `C148_ended_refuted`: SIGINT of gdb.py to a process whose `addProcess` failed. `C148_gdb_sigint_partial`: not if the kernel answers for the process asked for and tells of events of a process only after a stop by a signal (`PlainLog`); registered processes are then attached and running (`Hale`, `Lemmas/Hale.lean`, `Lemmas/HaleGdb.lean`) |
| C149 | `Model/Debugger` (`waitReply`, `waitExcept`, `processStatus`, `notRunning`), `Model/Strace`, `Model/Gdb`, `Model/Program`, `Model/GdbProgram` | `Spec/Heeds.lean`: `HeedsEnds`, every end told by a wait in the log for an object registered at that time shows in the state. A field of the invariant `Mourned` of C148, kept by every function on success and on every exception, for every kernel (`Lemmas/Spares.lean`, `Lemmas/GdbSpares.lean`) |

No property is considered inexpressible.
