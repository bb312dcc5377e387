import Verif.Model.Debugger

/-
Model of waiting for a process on FreeBSD and OpenBSD (`RUNNING_BSD`, no `HAS_PTRACE_EVENTS`): the functions of `Model/Debugger` again, with
the second wait that `processExited` makes there. There are no fork events, so waiting registers no process.
-/

namespace PT

/-- The debugger and the attribute `exited` of its processes (`ptrace/debugger/process.py:165`). -/
structure BsdSt where
  dbg : DSt
  exited : Nat → Bool

/-- Run a function of the debugger. -/
def onDbg {α : Type} (m : Py DSt α) : Py BsdSt α := fun s => ((m s.dbg).1, { s with dbg := (m s.dbg).2 })

/-- `PtraceProcess.waitExit` (`ptrace/debugger/process.py:334-353`) for a given `waitEvent`. -/
def bsdWaitExit (K : Kern) (W : Nat → Bool → Py BsdSt (Option Event)) (o : Nat) : Nat → Py BsdSt Unit
  | 0 => Py.raise .diverge
  | n + 1 => fun s =>
    Py.bind (W (s.dbg.heap o).pid true) (fun e =>
      match e with
      | some (.exit _ _ _) => Py.pure ()
      | some (.signal _ signum) =>
        Py.bind (onDbg (if signum ≠ SIGTRAP ∧ signum ≠ SIGSTOP then procCont K o signum else procCont K o 0))
          fun _ => bsdWaitExit K W o n
      | some ev => Py.raise (.event ev)
      | none => Py.raise .type) s

/-- `PtraceProcess.processExited` (`ptrace/debugger/process.py:384-391`). -/
def bsdExited (K : Kern) (waitExit : Py BsdSt Unit) (o code : Nat) : Py BsdSt Event := fun s =>
  Py.bind (if s.exited o then Py.pure () else
    fun s => waitExit { s with exited := fun i => if i = o then true else s.exited i }) (fun _ =>
  Py.bind (onDbg (notRunning K o)) fun _ => Py.pure (.exit o none (some code))) s

/-- `PtraceProcess.processStatus` (`ptrace/debugger/process.py:355-378`). -/
def bsdStatus (K : Kern) (waitExit : Py BsdSt Unit) (o : Nat) (status : Int) : Py BsdSt Event :=
  match classify false status with
  | .exited code => bsdExited K waitExit o code
  | .killed signum => Py.bind (onDbg (notRunning K o)) fun _ => Py.pure (.exit o (some signum) none)
  | .unknown => Py.raise (.ptrace none)
  | .event _ => Py.raise .type
  | .signal signum => Py.bind (onDbg (updProc o fun p => { p with isStopped := true })) fun _ => Py.pure (.signal o signum)

/-- `PtraceDebugger._wait_event_pid` (`ptrace/debugger/debugger.py:145-167`). -/
def bsdWaitPid (K : Kern) : Nat → Nat → Bool → Py BsdSt (Option Event)
  | 0, _, _ => Py.raise .diverge
  | n + 1, wanted, blocking => fun s =>
    match waitpidRaw K wanted blocking s.dbg with
    | (.error e, d) => onDbg (waitExcept K wanted e) { s with dbg := d }
    | (.ok r, d) =>
      if !blocking && r.1 = 0 then (.ok none, { s with dbg := d })
      else
        match dictGet d.dict r.1 with
        | some o => Py.bind (bsdStatus K (bsdWaitExit K (bsdWaitPid K n) o n) o r.2) (fun e => Py.pure (some e)) { s with dbg := d }
        | none => bsdWaitPid K n wanted blocking { s with dbg := d }

end PT
