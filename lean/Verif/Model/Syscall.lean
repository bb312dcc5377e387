import Verif.Model.Debugger

/-
Model of `SyscallState` (`ptrace/debugger/syscall_state.py`) over the debugger of `Model/Debugger`.

* A register snapshot is a number (the value of the reply to the `inspect` request); the name of the
  system call is a function of the snapshot (`SysCfg.name`, `ptrace/syscall/ptrace_syscall.py:85-90`).
  The name kept is the one before `setupSocketCall` replaces `socketcall`.
* `syscall.enter(regs)` and `syscall.exit()` (`ptrace_syscall.py:67-83,121-153`) are one request each;
  they may fail (arguments are formatted from the memory of the process).
* `ignore_exec_trap` is always true: nothing in the repository changes it.
-/

namespace PT

/-- What the registers and the callback say. -/
structure SysCfg where
  /-- name of the system call of a register snapshot -/
  name : Nat → Str
  /-- `ignore_callback(syscall)`, which only looks at the name (`strace.py:137-143`) -/
  ignore : Str → Bool

/-- Assign attributes of the `SyscallState` of object `o`. -/
def updSys (o : Nat) (f : SysState → SysState) : Py DSt Unit :=
  updProc o fun p => { p with ss := f p.ss }

/-- `"execve"` -/
def execveName : Str := ['e', 'x', 'e', 'c', 'v', 'e']

/-- `SyscallState.clear` (`ptrace/debugger/syscall_state.py:45-48`). -/
def sysClear (o : Nat) : Py DSt Unit :=
  updSys o fun ss => { ss with syscall := none, name := none, nextExit := false }

/-- `SyscallState.enter` (`ptrace/debugger/syscall_state.py:19-30`). -/
def sysEnter (K : Kern) (C : SysCfg) (o : Nat) : Py DSt (Option SysObj) := fun s =>
  Py.bind (ptraceCall K (.inspect o (s.heap o).pid)) (fun regs =>
  Py.bind (updSys o fun ss =>
    { ss with syscall := some ⟨s.log.length, regs, none⟩, name := some (C.name regs) }) fun _ =>
  Py.bind (if !(s.heap o).ss.hasCallback || !C.ignore (C.name regs) then
      void (ptraceCall K (.inspect o (s.heap o).pid))
    else updSys o fun ss => { ss with syscall := none }) fun _ =>
  Py.bind (updSys o fun ss => { ss with nextExit := true }) fun _ => fun t =>
  (.ok (t.heap o).ss.syscall, t)) s

/-- `if self.syscall: self.syscall.exit()` (`ptrace/debugger/syscall_state.py:33-34`). -/
def sysResult (K : Kern) (o : Nat) : Py DSt Unit := fun s =>
  match (s.heap o).ss.syscall with
  | some c =>
    Py.bind (ptraceCall K (.inspect o (s.heap o).pid)) (fun v =>
      updSys o fun ss => { ss with syscall := some { c with result := some v } }) s
  | none => (.ok (), s)

/-- The trap after `execve` (`ptrace/debugger/syscall_state.py:35-40`). -/
def sysExecTrap (K : Kern) (fuel : Nat) (o : Nat) : Py DSt Unit := fun s =>
  if (s.heap o).ss.name = some execveName ∧ s.traceExec = false then
    Py.bind (procSyscall K o 0) (fun _ =>
      void (waitSignals K fuel [SIGTRAP, SIGTRAP ||| 0x80] (some (s.heap o).pid))) s
  else (.ok (), s)

/-- `SyscallState.exit` (`ptrace/debugger/syscall_state.py:32-43`). -/
def sysExit (K : Kern) (fuel : Nat) (o : Nat) : Py DSt (Option SysObj) :=
  Py.bind (sysResult K o) fun _ =>
  Py.bind (sysExecTrap K fuel o) fun _ => fun t =>
  Py.bind (sysClear o) (fun _ => Py.pure (t.heap o).ss.syscall) t

/-- `SyscallState.event` (`ptrace/debugger/syscall_state.py:13-17`). -/
def sysEvent (K : Kern) (fuel : Nat) (C : SysCfg) (o : Nat) : Py DSt (Option SysObj) := fun s =>
  if (s.heap o).ss.nextExit then sysExit K fuel o s else sysEnter K C o s

end PT
