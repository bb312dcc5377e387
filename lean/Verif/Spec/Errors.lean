import Verif.Model.Debugger

/-! What may go wrong in a debugger: what the kernel, the operator and the traced processes do. A
`KeyError`, `IndexError`, `TypeError` or `AttributeError` is an error of the debugger itself. -/

namespace PT.Spec

/-- The exception tells of something outside the debugger: a request refused (`PtraceError`), a system call
that failed (`OSError`), Control-C, an event of a process; `diverge` is no exception, the run is cut off. -/
def FromOutside : Exc → Prop
  | .ptrace _ => True
  | .os _ => True
  | .interrupt => True
  | .event _ => True
  | .diverge => True
  | _ => False

/-- In this part of the log the kernel tells of a new process, with the number of a process that is
registered at that moment. -/
def ToldTwice (log : List Entry) : Prop :=
  ∃ e ∈ log, ∃ o p pid st q, e.call = .geteventmsg o p ∧ e.reply = .ok pid st ∧ (pid, q) ∈ e.dict

end PT.Spec
