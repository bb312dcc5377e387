import Verif.Spec.Asks

/-! Sessions of gdb.py with one process. -/

namespace PT.Spec

/-- The user does not interrupt this call; it is no single step; the kernel does not tell of a new process; a process is attached only while there is none. -/
def SoloEntry (e : Entry) : Prop :=
  e.reply ≠ .interrupt ∧
    match e.call with
    | .singlestep _ _ => False
    | .geteventmsg _ _ => ∀ v st, e.reply ≠ .ok v st
    | .attach _ _ => e.dict = []
    | _ => True

def SoloLog (log : List Entry) : Prop := ∀ e ∈ log, SoloEntry e

end PT.Spec
