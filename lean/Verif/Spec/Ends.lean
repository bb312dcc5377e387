import Verif.Spec.Debugger

/-! When a process is taken for ended: independent statement. -/

namespace PT.Spec

/-- The status of a process that is over. -/
def OverStatus (st : Int) : Prop := (∃ code, waitMeaning st = .exited code) ∨ ∃ signum, waitMeaning st = .killed signum

/-- By this reply the kernel tells that the process with this number is over: the end is the result of a wait, there is no such child to wait for
(`ECHILD`), or no such process to kill (`ESRCH`). -/
def TellsEnd (p : Nat) (e : Entry) : Prop :=
  (∃ w nohang wall st, e.call = .waitpid w nohang wall ∧ e.reply = .ok p st ∧ OverStatus st) ∨
  (∃ nohang wall, e.call = .waitpid (some p) nohang wall ∧ e.reply = .err 10) ∨
  ∃ o, e.call = .cont o p 9 ∧ e.reply = .err 3

/-- The kernel told so of the process of object `o`, which has the number `p`, and it did when the object was already there: the call was made for the
object itself, or when the number belonged to this object or to a later one. -/
def EndTold (log : List Entry) (o p : Nat) : Prop :=
  ∃ e ∈ log, TellsEnd p e ∧ ((∃ n, e.call = .cont o p n) ∨ ∃ o', o ≤ o' ∧ (p, o') ∈ e.dict)

end PT.Spec
