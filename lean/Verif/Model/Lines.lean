import Verif.Model.Strace
import Verif.Model.Status
import Verif.Model.GdbCmd
import Verif.Model.Dump
import Verif.Model.Hexdump

/-
Model of the lines that `strace.py` prints: the loop of `Model/Strace` again, with its output.

* The text of a system call and of its result (`PtraceSyscall.format`, `result_text`, C84 to C92) and the instruction pointer read when the
  call started are functions of the `PtraceSyscall` object.
* The lines about a signal (C106) are a parameter; whether they can be made is the reply to the `display` request, as in `Model/Strace`.
* `error` adds a line to the output (C103).
-/

namespace PT

/-- What the lines of `strace.py` are made of. -/
structure LineView where
  arch : Arch
  /-- `SIGNAMES` -/
  signames : List (Nat × Str)
  /-- `--show-pid` -/
  showPid : Bool
  /-- `--show-ip` -/
  showIp : Bool
  /-- `syscall.format()` -/
  call : SysObj → Str
  /-- `syscall.result_text` -/
  result : SysObj → Str
  /-- `syscall.instr_pointer` -/
  ip : SysObj → Nat
  /-- the lines of `ProcessSignal.display` -/
  signal : DSt → Nat → Nat → List Str

/-- `--fork` turns on `--show-pid` (`strace.py:132-133`). -/
def showPidOption (showPid fork : Bool) : Bool := if fork then true else showPid

/-- The text of `displaySyscall` (`strace.py:146-155`). -/
def callLine (F : LineView) (pid : Nat) (c : SysObj) : Str :=
  let text := F.call c
  let text := if c.result.isSome then ljust 40 text ++ " = ".toList ++ F.result c else text
  let pre := (if F.showPid then ["[".toList ++ pyDec pid ++ "]".toList] else []) ++
    (if F.showIp then ["[".toList ++ formatAddress F.arch (F.ip c) ++ "]".toList] else [])
  if pre.isEmpty then text else pre.flatten ++ ' ' :: text

/-- `"*** %s ***" % text` (`strace.py:209`) -/
def starred (text : Str) : Str := "*** ".toList ++ text ++ " ***".toList

/-- `SyscallTracer.displaySyscall` (`strace.py:145-156`). -/
def displaySyscallOut (K : Kern) (F : LineView) (o : Nat) (c : SysObj) : Py (Con DSt) Unit :=
  Py.bind (inside (displaySyscall K o)) fun _ => fun d => say (callLine F (d.inner.heap o).pid c) d

/-- `SyscallTracer.syscall` (`strace.py:191-198`). -/
def straceSyscallOut (K : Kern) (fuel : Nat) (C : StraceCfg) (F : LineView) (o : Nat) : Py (Con DSt) Unit :=
  Py.bind (inside (sysEvent K fuel C.sys o)) fun r =>
  Py.bind (match r with
    | some c => if c.result.isSome || C.enter then displaySyscallOut K F o c else Py.pure ()
    | none => Py.pure ()) fun _ =>
  inside (procSyscall K o 0)

/-- `SyscallTracer.processExited` (`strace.py:200-209`). -/
def processExitedOut (K : Kern) (C : StraceCfg) (F : LineView) (o : Nat) (signum exitcode : Option Nat) : Py (Con DSt) Unit := fun d =>
  Py.bind (match (d.inner.heap o).ss.syscall with
    | some c => if (d.inner.heap o).ss.nextExit && !C.enter then displaySyscallOut K F o c else Py.pure ()
    | none => Py.pure ()) (fun _ => fun e =>
  say (starred (processExitMessage F.signames (e.inner.heap o).pid signum exitcode)) e) d

/-- `SyscallTracer.newProcess` (`strace.py:215-219`). -/
def straceNewProcessOut (K : Kern) (q : Nat) : Py (Con DSt) Unit := fun d =>
  Py.bind (say (starred ("New process ".toList ++ pyDec (d.inner.heap q).pid))) (fun _ => inside (straceNewProcess K q)) d

/-- `SyscallTracer.processExecution` (`strace.py:221-224`). -/
def processExecutionOut (K : Kern) (o : Nat) : Py (Con DSt) Unit := fun d =>
  Py.bind (say (starred ("Process ".toList ++ pyDec (d.inner.heap o).pid ++ " execution".toList))) (fun _ => inside (procSyscall K o 0)) d

/-- What the loop does once `waitSyscall` returned or raised (`strace.py:168-188`). -/
def straceHandleOut (K : Kern) (fuel : Nat) (C : StraceCfg) (F : LineView) (r : Except Exc Event) (code : Nat) : Py (Con DSt) Nat :=
  match r with
  | .ok ev => Py.bind (straceSyscallOut K fuel C F ev.proc) fun _ => Py.pure code
  | .error (.event (.exit o signum exitcode)) =>
    Py.bind (processExitedOut K C F o signum exitcode) fun _ => Py.pure (exitcode.getD code)
  | .error (.event (.signal o signum)) => fun d =>
    Py.bind (inside (eventDisplay K o)) (fun _ =>
    Py.bind (sayAll (F.signal d.inner o signum)) fun _ =>
    Py.bind (inside (procSyscall K o signum)) fun _ => Py.pure (signalToExitcode signum)) d
  | .error (.event (.newProcess q)) => Py.bind (straceNewProcessOut K q) fun _ => Py.pure code
  | .error (.event (.execution o)) => Py.bind (processExecutionOut K o) fun _ => Py.pure code
  | .error e => Py.raise e

/-- One turn of the loop (`strace.py:166-188`). -/
def straceTurnOut (K : Kern) (fuel : Nat) (C : StraceCfg) (F : LineView) (code : Nat) : Py (Con DSt) Nat := fun d =>
  straceHandleOut K fuel C F (waitSyscall K fuel none d.inner).1 code ⟨(waitSyscall K fuel none d.inner).2, d.out⟩

/-- The loop of `syscallTrace` (`strace.py:162-189`). -/
def straceLoopOut (K : Kern) (fuel : Nat) (C : StraceCfg) (F : LineView) : Nat → Nat → Py (Con DSt) Nat
  | 0, _ => Py.raise .diverge
  | n + 1, code => fun d =>
    if length d.inner = 0 then (.ok code, d)
    else Py.bind (straceTurnOut K fuel C F code) (straceLoopOut K fuel C F n) d

/-- `SyscallTracer.syscallTrace` (`strace.py:158-189`). -/
def syscallTraceOut (K : Kern) (fuel : Nat) (C : StraceCfg) (F : LineView) (o : Nat) : Py (Con DSt) Nat :=
  Py.bind (inside (prepareProcess K o)) fun _ => straceLoopOut K fuel C F fuel 0

/-- `--list-syscalls` (`strace.py:82-87`): the lines printed; a dictionary is a list of entries. -/
def listSyscalls (names : List (Nat × Str)) : List Str :=
  (names.mergeSort fun a b => decide (a.1 ≤ b.1)).map fun e => padLeft 3 (pyDec e.1) ++ ": ".toList ++ e.2

/-- `SyscallTracer.createChild` (`strace.py:277-281`): the line about the new process; `args` is the text of the list `program`, `vars`
the environment, which is not looked at. -/
def createChildLine (program0 args : Str) (_vars : List Str) (pid : Nat) : Str :=
  "execve(".toList ++ program0 ++ ", ".toList ++ args ++ ", [/* 40 vars */]) = ".toList ++ pyDec pid

end PT
