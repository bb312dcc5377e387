import Verif.Model.Debugger

/-! Model of `examples/simple_dbg.py`. What is printed is not modelled, except the event. -/

namespace PT

/-- What the command line asks for (`simple_dbg.py:28-49`). -/
inductive SimpleStart where
  | usage
  | attach (pid : Int)
  | create (arguments : List Str)
  deriving DecidableEq

/-- The command line of `main` (`simple_dbg.py:28-49`); `parse` is `int()`, `none` for a `ValueError`. -/
def simpleStart (parse : Str → Option Int) (argv : List Str) : SimpleStart :=
  if argv.length < 2 then .usage
  else
    match (if argv.length = 2 then (argv[1]?).bind parse else none) with
    | some pid => .attach pid
    | none => .create (argv.drop 1)

/-- `process.dumpRegs()` (`ptrace/debugger/process.py:712-719`): a `PtraceError` is logged. -/
def simpleRegs (K : Kern) (o : Nat) : Py DSt Unit := fun s =>
  match ptraceCall K (.inspect o (s.heap o).pid) s with
  | (.ok _, s') => (.ok (), s')
  | (.error (.ptrace _), s') => (.ok (), s')
  | (.error e, s') => (.error e, s')

/-- `playWithProcess` (`simple_dbg.py:7-15`); `waitEvent` is `waitProcessEvent(pid=self.pid)` (`ptrace/debugger/process.py:732-733`). -/
def playWithProcess (K : Kern) (fuel o : Nat) : Py DSt (Option Event) := fun s =>
  Py.bind (simpleRegs K o) (fun _ =>
  Py.bind (procCont K o 0) fun _ =>
  waitProcessEvent K fuel (some (s.heap o).pid) true) s

/-- The rest of `main` (`simple_dbg.py:51-57`); the result is the event that is printed. -/
def simpleMain (K : Kern) (fuel pid : Nat) (isAttached : Bool) : Py DSt (Option Event) :=
  Py.bind (addProcess K (waitEventPid K fuel) pid isAttached none false) fun o =>
  Py.bind (playWithProcess K fuel o) fun e =>
  Py.bind (quit K fuel) fun _ => Py.pure e

end PT
