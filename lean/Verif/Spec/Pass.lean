import Verif.Spec.Wait
import Verif.Model.Debugger

/-! Which signals are reported to the tracer and which ones it passes on, read off the log of system calls. -/

namespace PT.Spec

/-- The stop that a reply of `waitpid` reports: process and signal. -/
def stopOf (e : Entry) : Option (Nat × Nat) :=
  match e.call, e.reply with
  | .waitpid _ _ _, .ok pid st =>
    if pid = 0 then none
    else match waitMeaning st with
      | .signal n => some (pid, n)
      | _ => none
  | _, _ => none

/-- Does the kernel tell the pid of a new process here? The call after that waits for the first stop of the new process. -/
def namesChild (e : Entry) : Bool :=
  match e.call, e.reply with
  | .geteventmsg _ _, .ok _ _ => true
  | _, _ => false

/-- The stops reported in a log, in order, without the first stop of each new process. -/
inductive StopsIn : List Entry → List (Nat × Nat) → Prop where
  | nil : StopsIn [] []
  | stop {e : Entry} {x : Nat × Nat} {g : List Entry} {l : List (Nat × Nat)} (h : stopOf e = some x) (rest : StopsIn g l) :
      StopsIn (e :: g) (x :: l)
  | child {e e' : Entry} {g : List Entry} {l : List (Nat × Nat)} (h : namesChild e = true) (rest : StopsIn g l) :
      StopsIn (e :: e' :: g) l
  | other {e : Entry} {g : List Entry} {l : List (Nat × Nat)} (h : stopOf e = none) (h' : namesChild e = false) (rest : StopsIn g l) :
      StopsIn (e :: g) l

/-- The signal that a request hands to a process. -/
def signalSent : Call → Option (Nat × Nat)
  | .cont _ pid n => if n = 0 then none else some (pid, n)
  | .syscall _ pid n => if n = 0 then none else some (pid, n)
  | .kill _ pid n => if n = 0 then none else some (pid, n)
  | _ => none

/-- The signals handed to processes in a log, in order. -/
def passedOnIn (g : List Entry) : List (Nat × Nat) := (g.map Entry.call).filterMap signalSent

/-- A signal other than `SIGTRAP` (5) and the mark of system calls (0x85); 0 is no signal. -/
def OtherSignal (x : Nat × Nat) : Bool := x.2 ≠ 0 && x.2 ≠ 5 && x.2 ≠ 0x85

end PT.Spec
