import Verif.Model.Syscall
import Verif.Model.Text

/-
Model of `strace.py`: the tracing loop, the filters and the options that select system calls.

* Output is dropped, except that formatting a system call or a signal may read the process and fail
  (`display` request).
* `--profiler`, `--output` and the log set-up are not modelled.
-/

namespace PT

/-- The process of an event (`ptrace/debugger/process_event.py:12-14`). -/
def Event.proc : Event → Nat
  | .exit o _ _ => o
  | .signal o _ => o
  | .newProcess o => o
  | .execution o => o

/-- Options of the tracer used by the loop. -/
structure StraceCfg where
  sys : SysCfg
  /-- `--enter` -/
  enter : Bool

/-- `signal_to_exitcode` (`ptrace/tools.py:158-167`). -/
def signalToExitcode (signum : Nat) : Nat := 128 + signum

/-- `SyscallTracer.displaySyscall` (`strace.py:145-156`). -/
def displaySyscall (K : Kern) (o : Nat) : Py DSt Unit := eventDisplay K o

/-- Is this report of a system call displayed? (`strace.py:194`) -/
def displayed (enter : Bool) (r : Option SysObj) : Bool :=
  match r with
  | some c => c.result.isSome || enter
  | none => false

/-- `SyscallTracer.syscall` (`strace.py:191-198`). -/
def straceSyscall (K : Kern) (fuel : Nat) (C : StraceCfg) (o : Nat) : Py DSt Unit :=
  Py.bind (sysEvent K fuel C.sys o) fun r =>
  Py.bind (if displayed C.enter r then displaySyscall K o else Py.pure ()) fun _ =>
  procSyscall K o 0

/-- `SyscallTracer.processExited` (`strace.py:200-209`). -/
def processExited (K : Kern) (C : StraceCfg) (o : Nat) : Py DSt Unit := fun s =>
  if (s.heap o).ss.nextExit && !C.enter && (s.heap o).ss.syscall.isSome then displaySyscall K o s
  else (.ok (), s)

/-- `SyscallTracer.prepareProcess` (`strace.py:211-213`). -/
def prepareProcess (K : Kern) (o : Nat) : Py DSt Unit :=
  Py.bind (procSyscall K o 0) fun _ =>
  updSys o fun ss => { ss with hasCallback := true }

/-- `SyscallTracer.newProcess` (`strace.py:215-219`); `None.syscall` is an `AttributeError`. -/
def straceNewProcess (K : Kern) (q : Nat) : Py DSt Unit :=
  Py.bind (prepareProcess K q) fun _ => fun s =>
  match (s.heap q).parent with
  | some p => procSyscall K p 0 s
  | none => (.error .attribute, s)

/-- What the loop does once `waitSyscall` returned or raised (`strace.py:168-188`): the new exit code. -/
def straceHandle (K : Kern) (fuel : Nat) (C : StraceCfg) (r : Except Exc Event) (code : Nat) : Py DSt Nat :=
  match r with
  | .ok ev => Py.bind (straceSyscall K fuel C ev.proc) fun _ => Py.pure code
  | .error (.event (.exit o _ exitcode)) =>
    Py.bind (processExited K C o) fun _ => Py.pure (exitcode.getD code)
  | .error (.event (.signal o signum)) =>
    Py.bind (eventDisplay K o) fun _ =>
    Py.bind (procSyscall K o signum) fun _ => Py.pure (signalToExitcode signum)
  | .error (.event (.newProcess q)) => Py.bind (straceNewProcess K q) fun _ => Py.pure code
  | .error (.event (.execution o)) => Py.bind (procSyscall K o 0) fun _ => Py.pure code
  | .error e => Py.raise e

/-- One turn of the loop (`strace.py:166-188`). -/
def straceTurn (K : Kern) (fuel : Nat) (C : StraceCfg) (code : Nat) : Py DSt Nat := fun s =>
  straceHandle K fuel C (waitSyscall K fuel none s).1 code (waitSyscall K fuel none s).2

/-- The loop of `syscallTrace` (`strace.py:162-189`); `not self.debugger` is `len(self.debugger) == 0`. -/
def straceLoop (K : Kern) (fuel : Nat) (C : StraceCfg) : Nat → Nat → Py DSt Nat
  | 0, _ => Py.raise .diverge
  | n + 1, code => fun s =>
    if length s = 0 then (.ok code, s)
    else Py.bind (straceTurn K fuel C code) (straceLoop K fuel C n) s

/-- `SyscallTracer.syscallTrace` (`strace.py:158-189`). -/
def syscallTrace (K : Kern) (fuel : Nat) (C : StraceCfg) (o : Nat) : Py DSt Nat :=
  Py.bind (prepareProcess K o) fun _ => straceLoop K fuel C fuel 0

/-- `Application.createProcess` once the child exists (`ptrace/debugger/application.py:70-79`). -/
def createProcess (K : Kern) (fuel : Nat) (pid : Nat) (isAttached : Bool) : Py DSt (Option Nat) := fun s =>
  match addProcess K (waitEventPid K fuel) pid isAttached none false s with
  | (.ok o, t) => (.ok (some o), t)
  | (.error (.event (.exit _ _ _)), t) => (.ok none, t)
  | (.error (.ptrace _), t) => (.ok none, t)
  | (.error e, t) => (.error e, t)

/-- `SyscallTracer.runDebugger` (`strace.py:226-243`): `none` is `None`. -/
def straceRun (K : Kern) (fuel : Nat) (C : StraceCfg) (pid : Nat) (isAttached : Bool) : Py DSt (Option Nat) :=
  Py.bind (createProcess K fuel pid isAttached) fun o =>
  match o with
  | some o => Py.bind (syscallTrace K fuel C o) fun code => Py.pure (some code)
  | none => Py.pure none

/-- The `except` clauses of `_main` (`strace.py:260-273`). -/
def straceExcept (K : Kern) (C : StraceCfg) (e : Exc) : Py DSt (Option Nat) :=
  match e with
  | .event (.exit o _ exitcode) => Py.bind (processExited K C o) fun _ => Py.pure (some (exitcode.getD 0))
  | .ptrace errno => Py.pure (some (errno.getD 0))
  | .diverge => Py.raise .diverge
  | _ => Py.pure (some 1)

/-- `SyscallTracer._main` (`strace.py:255-275`): the exit status given to `sys.exit`. -/
def straceMain (K : Kern) (fuel : Nat) (C : StraceCfg) (pid : Nat) (isAttached : Bool) : Py DSt (Option Nat) :=
  fun s =>
  let (r, t) := straceRun K fuel C pid isAttached s
  Py.bind (match r with
    | .ok code => Py.pure code
    | .error e => straceExcept K C e) (fun code =>
  Py.bind (quit K fuel) fun _ => Py.pure code) t

/-! ### options and filters -/

/-- The tables `strace.py` selects from (`ptrace/syscall/__init__.py`). -/
structure SysTables where
  /-- `SYSCALL_NAMES.values()` -/
  names : List Str
  /-- `SYSCALL_PROTOTYPES`: name and names of the arguments -/
  prototypes : List (Str × List Str)
  /-- `FILENAME_ARGUMENTS` -/
  filenameArguments : List Str
  /-- `SOCKET_SYSCALL_NAMES` -/
  socketNames : List Str

/-- The loop over `--syscalls` (`strace.py:96-113`); `exit(1)` is `none`. A set is a list without
duplicates here. -/
def onlyLoop (names : List Str) (space : Char → Bool) : List Str → List Str → Option (List Str)
  | [], only => some only
  | item :: items, only =>
    if (strip space item).isEmpty || only.contains (strip space item) then onlyLoop names space items only
    else if only.all fun name => names.contains name then
      onlyLoop names space items (only ++ [strip space item])
    else none

/-- Options that select system calls. -/
structure Selection where
  /-- `--syscalls`, `none` for `None` -/
  syscalls : Option Str
  /-- `--filename` -/
  filename : Bool
  /-- `--socket` -/
  socket : Bool

/-- The set `only` (`strace.py:93-121`); `none` for `exit(1)`. -/
def onlyFilter (T : SysTables) (space : Char → Bool) (sel : Selection) : Option (List Str) :=
  let first := match sel.syscalls with
    | some text => if text.isEmpty then some [] else onlyLoop T.names space (splitOn ',' text) []
    | none => some []
  first.map fun only =>
    let only := if sel.filename then
        only ++ (T.prototypes.filter fun p => p.2.any fun a => T.filenameArguments.contains a).map Prod.fst
      else only
    if sel.socket then only ++ T.socketNames else only

/-- `SyscallTracer.ignoreSyscall` (`strace.py:137-143`); `regexMatch` is `ignore_regex.match(name)`. -/
def ignoreSyscall (only : List Str) (regexMatch : Option (Str → Bool)) (name : Str) : Bool :=
  if !only.isEmpty && !only.contains name then true
  else match regexMatch with
    | some m => m name
    | none => false

end PT
