import Verif.Model.Signals

/-
Model of wait status decoding: `ptrace/debugger/process.py:355-413`, `ptrace/binding/func.py:229-231`,
`ptrace/debugger/process_event.py`, `ptrace/process_tools.py:106-126`,
`ptrace/debugger/ptrace_signal.py:214-220` and `ptrace/debugger/signal_reason.py` (`ChildExit`).
The macros of `os` are those of glibc on a C `int`; `% 2^k` is `& (2^k - 1)` in two's complement.
-/

namespace PT

/-- `os.WTERMSIG`: `status & 0x7f` -/
def wTermSig (s : Int) : Nat := (s % 128).toNat
/-- `os.WEXITSTATUS`: `(status & 0xff00) >> 8` -/
def wExitStatus (s : Int) : Nat := (s / 256 % 256).toNat
/-- `os.WSTOPSIG`: same bits as `WEXITSTATUS` -/
def wStopSig (s : Int) : Nat := wExitStatus s
/-- `os.WIFEXITED`: `WTERMSIG(status) == 0` -/
def wIfExited (s : Int) : Bool := decide (wTermSig s = 0)
/-- `os.WIFSIGNALED`: `((signed char)((status & 0x7f) + 1) >> 1) > 0` -/
def wIfSignaled (s : Int) : Bool := decide (0 < wTermSig s ∧ wTermSig s < 127)
/-- `os.WIFSTOPPED`: `(status & 0xff) == 0x7f` -/
def wIfStopped (s : Int) : Bool := decide (s % 256 = 127)
/-- `os.WCOREDUMP`: `status & 0x80` -/
def wCoreDump (s : Int) : Bool := decide (s / 128 % 2 = 1)
/-- `WPTRACEEVENT`: `status >> 16` (`ptrace/binding/func.py:229-230`). -/
def wPtraceEvent (s : Int) : Int := s / 65536

/-- Branch taken by `PtraceProcess.processStatus` (`ptrace/debugger/process.py:355-378`). -/
inductive StatusKind where
  | exited (code : Nat)
  | killed (signum : Nat)
  | unknown
  | event (event : Int)
  | signal (signum : Nat)
  deriving DecidableEq, Repr

/-- Decoding done by `PtraceProcess.processStatus` (`ptrace/debugger/process.py:355-378`); the
actions of each branch are in `Model/Debugger`. `hasEvents` is `HAS_PTRACE_EVENTS`. -/
def classify (hasEvents : Bool) (s : Int) : StatusKind :=
  if wIfExited s then .exited (wExitStatus s)
  else if wIfSignaled s then .killed (wTermSig s)
  else if !wIfStopped s then .unknown
  else if hasEvents && decide (wPtraceEvent s ≠ 0) then .event (wPtraceEvent s)
  else .signal (wStopSig s)

/-- Message of `ProcessExit(process, signum, exitcode)`
(`ptrace/debugger/process_event.py:25-37`). -/
def processExitMessage (signames : List (Nat × Str)) (pid : Nat) (signum exitcode : Option Nat) : Str :=
  let head := "Process ".toList ++ pyDec pid
  if signum.getD 0 ≠ 0 then
    head ++ " killed by signal ".toList ++ signalName signames (signum.getD 0)
  else
    match exitcode with
    | some code =>
      if code = 0 then head ++ " exited normally".toList
      else head ++ " exited with code ".toList ++ pyDec code
    | none => head ++ " terminated abnormally".toList

/-- `formatProcessStatus` (`ptrace/process_tools.py:106-124`). -/
def formatProcessStatus (signames : List (Nat × Str)) (status : Int) (title : Str) : Str :=
  let text :=
    if wIfStopped status then
      title ++ " stopped by signal ".toList ++ signalName signames (wStopSig status)
    else if wIfSignaled status then
      title ++ " killed by signal ".toList ++ signalName signames (wTermSig status)
    else if wExitStatus status ≠ 0 then
      title ++ " exited with code ".toList ++ pyDec (wExitStatus status)
    else title ++ " exited normally".toList
  if wCoreDump status then text ++ " (core dumped)".toList else text

/-- Text of `ChildExit(pid, status, uid)` (`ptrace/debugger/signal_reason.py`, class `ChildExit`). -/
def childExitText (signames : List (Nat × Str)) (info : Option (Nat × Int)) : Str :=
  match info with
  | some (pid, status) =>
    formatProcessStatus signames status ("Child process ".toList ++ pyDec pid)
  | none => "Child process exited".toList

/-- `ProcessSignal.childExit` (`ptrace/debugger/ptrace_signal.py:214-220`): `siginfo` is the
`(si_pid, si_code, si_status)` given by the kernel, if it could be read; `si_code` is not used. -/
def childExit (signames : List (Nat × Str)) (siginfo : Option (Nat × Nat × Int)) : Str :=
  childExitText signames (siginfo.map fun i => (i.1, i.2.2))

end PT
