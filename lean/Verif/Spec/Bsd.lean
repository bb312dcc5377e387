import Verif.Model.Debugger

/-! What the answer of `waitpid` says about a process, stated on the bits of the status. -/

namespace PT.Spec

/-- The event that this answer reports for process object `o` (there are no ptrace events). -/
inductive Told (o : Nat) : Reply → Event → Prop
  | exit (p code : Nat) (st : Int) (h : st % 128 = 0) (hc : (code : Int) = st / 256 % 256) : Told o (.ok p st) (.exit o none (some code))
  | killed (p signum : Nat) (st : Int) (h : 0 < st % 128 ∧ st % 128 < 127) (hs : (signum : Int) = st % 128) : Told o (.ok p st) (.exit o (some signum) none)
  | stopped (p signum : Nat) (st : Int) (h : st % 256 = 127) (hs : (signum : Int) = st / 256 % 256) : Told o (.ok p st) (.signal o signum)
  /-- `ECHILD`: there is no such child -/
  | noChild : Told o (.err 10) (.exit o none none)

/-- The answer says that process `pid` exists no more. -/
def Over (pid : Nat) : Reply → Prop
  | .ok p st => p = pid ∧ st % 128 < 127
  | .err n => n = 10
  | .interrupt => False

end PT.Spec
