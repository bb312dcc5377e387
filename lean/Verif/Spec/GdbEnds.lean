import Verif.Spec.Ends
import Verif.Spec.Minds
import Verif.Model.Gdb

/-! When gdb.py takes a process for ended: independent statement. -/

namespace PT.Spec

/-- A request for the process with this number was refused with `ESRCH`: there is no such process, or it is not stopped, or not traced. -/
def Denied (log : List Entry) (p : Nat) : Prop := ∃ e ∈ log, named e.call = some p ∧ e.reply = .err 3

/-- `err.pid` is the number of a process for which a request was refused so; 0 if there is none. -/
def ErrTold (G : GdbCfg) : Prop := ∀ s, G.errPid s = 0 ∨ Denied s.log (G.errPid s)

end PT.Spec
