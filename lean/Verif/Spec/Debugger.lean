import Verif.Spec.Wait
import Verif.Model.Debugger

/-! What the debugger must guarantee, stated on its state and on the log of system calls. -/

namespace PT.Spec

/-- `iter(debugger)`, `len(debugger)` and `debugger[pid]` describe the same processes, each pid once,
each process under its own pid. -/
structure Consistent (s : DSt) : Prop where
  /-- no pid occurs twice in an iteration -/
  once : ((iterate s).map fun o => (s.heap o).pid).Nodup
  /-- indexing finds exactly the iterated processes, under their own pid -/
  index : ∀ pid o, getitem s pid = some o ↔ o ∈ iterate s ∧ (s.heap o).pid = pid
  /-- the length is the number of iterated processes, which is the number of keys -/
  length : PT.length s = (iterate s).length ∧ s.dict.length = (iterate s).length

/-- The process is registered: it can be reached from the debugger. -/
def Registered (s : DSt) (o : Nat) : Prop := o ∈ iterate s ∨ ∃ pid, (pid, o) ∈ s.dict

/-- Calls that do not bypass the library: `deleteProcess` is only called for a process that is not
attached and that is registered, `attach` only for a registered one, and pid 0 is never named. -/
def Proper (s : DSt) : Op → Prop
  | .addProcess pid _ _ _ => pid ≠ 0
  | .waitProcessEvent pid _ => pid ≠ some 0
  | .waitSignals _ pid => pid ≠ some 0
  | .deleteProcess o => (s.heap o).isAttached = false ∧ o ∈ iterate s
  | .deletePid pid => ∀ o, getitem s pid = some o → (s.heap o).isAttached = false
  | .attach o => o ∈ iterate s
  | _ => True

/-- States reached by any sequence of such calls from a new debugger, each call with any fuel,
going on after exceptions. -/
inductive Reach (K : Kern) : DSt → Prop where
  | new : Reach K newDebugger
  | call {s : DSt} (h : Reach K s) (fuel : Nat) (op : Op) (hop : Proper s op) : Reach K (runOp K fuel op s).2

/-- `ops`, each with any fuel, lead from `s` to the last state; the caller goes on after exceptions. -/
inductive Trace (K : Kern) (s : DSt) : List Op → DSt → Prop where
  | nil : Trace K s [] s
  | snoc {ops : List Op} {t : DSt} (h : Trace K s ops t) (fuel : Nat) (op : Op) :
      Trace K s (ops ++ [op]) (runOp K fuel op t).2

/-- The event is about object `o`; a new process event about its parent. -/
def EventFor (t : DSt) (o : Nat) : Event → Prop
  | .exit q _ _ => q = o
  | .signal q _ => q = o
  | .execution q => q = o
  | .newProcess q => (t.heap q).parent = some o

/-- The reply of `waitpid` for object `o` with this pid says what the event says. -/
def Says (pid o : Nat) (r : Reply) : Event → Prop
  | .exit q signum code => q = o ∧ ((r = .err 10 ∧ signum = none ∧ code = none) ∨
      ∃ st, r = .ok pid st ∧ ((∃ c, waitMeaning st = .exited c ∧ signum = none ∧ code = some c) ∨
        ∃ n, waitMeaning st = .killed n ∧ signum = some n ∧ code = none))
  | .signal q n => q = o ∧ ∃ st, r = .ok pid st ∧ waitMeaning st = .signal n
  | .execution q => q = o ∧ ∃ st, r = .ok pid st ∧ waitMeaning st = .event 4
  | .newProcess _ => ∃ st n, r = .ok pid st ∧ waitMeaning st = .event n ∧ (n = 1 ∨ n = 2 ∨ n = 3)

/-- The kernel never reports that a process stopped because of `SIGKILL`. -/
def NoKillStop (K : Kern) : Prop := ∀ log c v st, K log c = .ok v st → waitMeaning st ≠ .signal 9

/-- The kernel never reports 0 as the pid of a new process. -/
def RealPids (K : Kern) : Prop := ∀ log o pid st, K log (.geteventmsg o pid) ≠ .ok 0 st

/-- The process object a request acts upon, if it resumes, signals, attaches or detaches one. -/
def target : Call → Option Nat
  | .attach o _ => some o
  | .detach o _ => some o
  | .cont o _ _ => some o
  | .syscall o _ _ => some o
  | .singlestep o _ => some o
  | .kill o _ _ => some o
  | _ => none

/-- A request that delivers a signal. -/
def sends : Call → Option Nat
  | .cont _ _ n => some n
  | .syscall _ _ n => some n
  | .kill _ _ n => some n
  | _ => none

/-- Is the request a `PTRACE_DETACH` of object `o`? -/
def isDetach (o : Nat) : Call → Bool
  | .detach q _ => decide (q = o)
  | _ => false

/-- Number of `PTRACE_DETACH` requests for object `o`. -/
def detachCount (o : Nat) (log : List Entry) : Nat := log.countP fun e => isDetach o e.call

/-- Does the request send `SIGKILL`? -/
def isKill : Call → Bool
  | .cont _ _ n => decide (n = 9)
  | .kill _ _ n => decide (n = 9)
  | .syscall _ _ n => decide (n = 9)
  | _ => false

/-- The requests were made for the processes `os` one after the other (perhaps stopping early), and a
signal was only sent to a process created by the debugger. -/
inductive Handled (s : DSt) : List Nat → List Entry → Prop where
  | stop (os : List Nat) : Handled s os []
  | next {o : Nat} {os : List Nat} {g g' : List Entry}
      (own : ∀ e ∈ g, ∀ q, target e.call = some q → q = o)
      (mine : ∀ e ∈ g, sends e.call ≠ none → (s.heap o).wasAttached = true)
      (rest : Handled s os g') : Handled s (o :: os) (g ++ g')

/-- Option bits of a call. -/
def optionBits : Op → Nat
  | .traceFork => 2 + 4
  | .traceExec => 16
  | .traceClone => 8
  | .enableSysgood => 1
  | _ => 0

end PT.Spec
