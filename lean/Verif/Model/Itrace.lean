import Verif.Model.Lines

/-
Model of `examples/itrace.py`: a tracer built on `strace.py` that lets a number of stops at system calls go by and then executes the
program one instruction at a time, printing the instruction pointer before each.

* Reading the instruction pointer is one `inspect` request; its value is the address.
* `print` adds a line to the output.
* The comparison `i < syscall_limit` is the one of Python 3 (the package needs it, `setup.py`): comparing with `None` is a `TypeError`.
-/

namespace PT

/-- `print(i, process.pid, "[%08x]" % eip)` (`examples/itrace.py:39`) -/
def stepText (i pid ip : Nat) : Str :=
  pyDec i ++ ' ' :: pyDec pid ++ ' ' :: '[' :: pyHexPad 8 ip ++ "]".toList

/-- `process.getInstrPointer()` (`ptrace/debugger/process.py:484-488`). -/
def itraceIp (K : Kern) (o : Nat) : Py DSt Nat := fun s => ptraceCall K (.inspect o (s.heap o).pid) s

/-- The first loop of `Tracer.syscallTrace` (`examples/itrace.py:30-35`): `limit` is `options.syscall_limit`. -/
def itraceCount (K : Kern) (fuel o : Nat) (limit : Option Int) : Nat → Nat → Py (Con DSt) Unit
  | 0, _ => Py.raise .diverge
  | n + 1, i =>
    match limit with
    | none => Py.raise .type
    | some l =>
      if (i : Int) < l then
        Py.bind (say (pyDec i)) fun _ =>
        Py.bind (inside (procSyscall K o 0)) fun _ =>
        Py.bind (inside (waitSyscall K fuel none)) fun _ => itraceCount K fuel o limit n (i + 1)
      else Py.pure ()

/-- `event.signum & ~128` (`examples/itrace.py:47`) -/
def clear128 (signum : Nat) : Nat := signum ^^^ (signum &&& 128)

/-- The second loop of `Tracer.syscallTrace` (`examples/itrace.py:36-49`); `while self.debugger` asks for its length. -/
def itraceSteps (K : Kern) (fuel o : Nat) : Nat → Nat → Py (Con DSt) Unit
  | 0, _ => Py.raise .diverge
  | n + 1, i => fun d =>
    if length d.inner = 0 then (.ok (), d)
    else
      Py.bind (inside (itraceIp K o)) (fun ip =>
      Py.bind (fun e => say (stepText i (e.inner.heap o).pid ip) e) fun _ =>
      Py.bind (inside (procSingleStep K o)) fun _ =>
      Py.bind (inside (waitProcessEvent K fuel none true)) fun ev =>
      match ev with
      | some (.exit _ _ _) => say "process exit".toList
      | some (.signal _ signum) =>
        if clear128 signum ≠ SIGTRAP then say ("died with signal ".toList ++ pyDec signum)
        else itraceSteps K fuel o n (i + 1)
      | _ => itraceSteps K fuel o n (i + 1)) d

/-- `Tracer.syscallTrace` (`examples/itrace.py:27-49`). -/
def itraceTrace (K : Kern) (fuel o : Nat) (limit : Option Int) : Py (Con DSt) Unit :=
  Py.bind (itraceCount K fuel o limit fuel 0) fun _ => itraceSteps K fuel o fuel 0

/-- `SyscallTracer.runDebugger` with this `syscallTrace` (`strace.py:226-243`): it returns `None`. -/
def itraceRun (K : Kern) (fuel : Nat) (limit : Option Int) (pid : Nat) (isAttached : Bool) : Py (Con DSt) (Option Nat) :=
  Py.bind (inside (createProcess K fuel pid isAttached)) fun o =>
  match o with
  | some o => Py.bind (itraceTrace K fuel o limit) fun _ => Py.pure none
  | none => Py.pure none

/-- `SyscallTracer._main` (`strace.py:255-275`): the value given to `sys.exit`; the lines of the `except` clauses are dropped. -/
def itraceMain (K : Kern) (fuel : Nat) (C : StraceCfg) (limit : Option Int) (pid : Nat) (isAttached : Bool) : Py (Con DSt) (Option Nat) :=
  fun d =>
  let (r, e) := itraceRun K fuel limit pid isAttached d
  Py.bind (match r with
    | .ok code => Py.pure code
    | .error x => inside (straceExcept K C x)) (fun code =>
  Py.bind (inside (quit K fuel)) fun _ => Py.pure code) e

end PT
