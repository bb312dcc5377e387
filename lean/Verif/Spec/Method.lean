import Verif.Model.Debugger

/-! What the methods of a process ask of the kernel. -/

namespace PT.Spec

/-- The methods that act on one process at once. -/
inductive Acts : Nat → Op → Prop where
  | attach (o : Nat) : Acts o (.attach o)
  | detach (o : Nat) : Acts o (.detach o)
  | cont (o signum : Nat) : Acts o (.cont o signum)
  | syscall (o signum : Nat) : Acts o (.syscall o signum)
  | singleStep (o : Nat) : Acts o (.singleStep o)
  | kill (o signum : Nat) : Acts o (.kill o signum)
  | setoptions (o options : Nat) : Acts o (.setoptions o options)

/-- The request for a call of a method: by its name, for the process `pid`, with the signal of the caller, except signal 5, which is for the debugger. A
process is attached only if it is not, and let go only if it is attached and runs. -/
def theRequest (attached running : Bool) (pid : Nat) : Op → Option Call
  | .attach o => if attached then none else some (.attach o pid)
  | .detach o => if attached && running then some (.detach o pid) else none
  | .cont o n => some (.cont o pid (if n = 5 then 0 else n))
  | .syscall o n => some (.syscall o pid (if n = 5 then 0 else n))
  | .singleStep o => some (.singlestep o pid)
  | .kill o n => some (.kill o pid n)
  | .setoptions o b => some (.setoptions o pid b)
  | _ => none

/-- The answer of the kernel as the caller sees it: `kill` is a function of Python's `os`, the others are requests. -/
def Answers (op : Op) (r : Reply) (a : Except Exc Unit) : Prop := match r with
  | .ok _ _ => a = .ok ()
  | .err e => (∀ o n, op ≠ .kill o n) ∧ a = .error (.ptrace (some e)) ∨ (∃ o n, op = .kill o n) ∧ a = .error (.os e)
  | .interrupt => a = .error .interrupt

/-- Does the method let the process run? -/
def letsRun : Op → Bool
  | .cont _ _ => true
  | .syscall _ _ => true
  | _ => false

/-- What the object says afterwards; `done` tells that the kernel did what was asked. -/
def afterwards (op : Op) (done : Bool) (p : Proc) : Proc := match op with
  | .attach _ => { p with isAttached := p.isAttached || done }
  | .detach _ => { p with isAttached := false }
  | _ => if letsRun op && done then { p with isStopped := false } else p

end PT.Spec
