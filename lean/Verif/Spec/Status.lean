/-! Independent specification of wait statuses, as the Linux kernel builds them
(`kernel/exit.c`, `kernel/ptrace.c`, `wait(2)`). -/

namespace PT.Spec

/-- Exit with a code. -/
def stExit (code : Nat) : Int := code * 256
/-- Death by a signal, with or without a core dump. -/
def stKilled (signum : Nat) (core : Bool) : Int := signum + (if core then 128 else 0)
/-- Stop by a signal. -/
def stStopped (signum : Nat) : Int := 127 + signum * 256
/-- Ptrace event stop: `SIGTRAP | (event << 8)` in the stop signal. -/
def stEvent (signum event : Nat) : Int := 127 + signum * 256 + event * 65536
/-- `WCONTINUED` report. -/
def stContinued : Int := 0xffff

/-- How a child of the tracee changed state (`si_code` of `SIGCHLD`, `sigaction(2)`). -/
inductive ChildEnd where
  /-- `CLD_EXITED = 1`, `si_status` is the exit code -/
  | exited (code : Nat)
  /-- `CLD_KILLED = 2`, `si_status` is the signal -/
  | killed (signum : Nat)
  /-- `CLD_DUMPED = 3`, `si_status` is the signal -/
  | dumped (signum : Nat)
  /-- `CLD_STOPPED = 5`, `si_status` is the signal -/
  | stopped (signum : Nat)

/-- `(si_code, si_status)` -/
def ChildEnd.siginfo : ChildEnd → Nat × Int
  | .exited c => (1, c)
  | .killed s => (2, s)
  | .dumped s => (3, s)
  | .stopped s => (5, s)

end PT.Spec
