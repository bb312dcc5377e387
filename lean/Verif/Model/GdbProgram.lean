import Verif.Model.Program
import Verif.Model.GdbMain

/-
Model of gdb.py as a whole: from its command line to its end. Simplified: as in `Model/Program` and `Model/GdbMain`. Of the environment only the commands
and the new processes are looked at.
-/

namespace PT

/-- How gdb.py ends: before it traces anything, or after a session. -/
inductive GdbEnded where
  | early (status : Nat)
  | ran (result : Except Exc (Option (List Input))) (state : DSt)

/-- `Gdb().main()` (`gdb.py:153-165`, `gdb.py:849-888`). -/
def gdbProgram (E : ProgramEnv) (K : Kern) (fuel : Nat) (G : GdbCfg) (args : List Str) (inputs : List Input) : GdbEnded :=
  match gdbParse E.cmd args with
  | .exit code => .early code
  | .ok v program =>
    match setupDebugger true ⟨isOn v "fork", isOn v "trace_exec", isOn v "trace_clone"⟩ newDebugger with
    | (some code, _, _) => .early code
    | (none, _, s) =>
      let (r, t) := match tracedBy v program with
        | .attach n => gdbMain K fuel G n.toNat false inputs s
        | .start p => gdbMain K fuel G (E.child p) true inputs s
      .ran r t

end PT
