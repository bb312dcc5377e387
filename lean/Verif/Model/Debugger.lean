import Verif.Model.Status

/-
Model of `PtraceDebugger` (`ptrace/debugger/debugger.py`) and of the life cycle part of `PtraceProcess`
(`ptrace/debugger/process.py`) on Linux (`HAS_PTRACE_EVENTS`, not `RUNNING_BSD`).

* `PtraceProcess` objects live in a heap: object identity is the index, `next` the number of objects.
* The kernel is an arbitrary function of everything that happened before (`Kern`), so a statement for
  every `Kern` is a statement for every sequence of replies, errors and interruptions.
* Every system call is logged with its reply and with the registry at that moment (the last one is
  ghost state, as is the object index stored in the calls).
* Simplified: no garbage collection (`__del__`), `read_mem_file` is not closed here, log messages are
  dropped; `event.display()` is one call `display` that may fail.
-/

namespace PT

/-- Signal numbers used by the code (Linux). -/
def SIGINT : Nat := 2
def SIGTRAP : Nat := 5
def SIGKILL : Nat := 9
def SIGSTOP : Nat := 19

/-- `errno` values used by the code (Linux). -/
def ESRCH : Nat := 3
def ECHILD : Nat := 10

/-- Constants of `ptrace/binding/func.py:117-129`. -/
def PTRACE_O_TRACESYSGOOD : Nat := 1
def PTRACE_O_TRACEFORK : Nat := 2
def PTRACE_O_TRACEVFORK : Nat := 4
def PTRACE_O_TRACECLONE : Nat := 8
def PTRACE_O_TRACEEXEC : Nat := 16
def PTRACE_EVENT_FORK : Int := 1
def PTRACE_EVENT_VFORK : Int := 2
def PTRACE_EVENT_CLONE : Int := 3
def PTRACE_EVENT_EXEC : Int := 4

/-- System calls made by the modelled code; `obj` is the process object they are made for. -/
inductive Call where
  | attach (obj pid : Nat)
  | detach (obj pid : Nat)
  | cont (obj pid signum : Nat)
  | syscall (obj pid signum : Nat)
  | singlestep (obj pid : Nat)
  | kill (obj pid signum : Nat)
  | setoptions (obj pid options : Nat)
  | geteventmsg (obj pid : Nat)
  /-- `waitpid(pid, flags)`: `none` is `-1`; flags are `WNOHANG` and `THREAD_TRACE_FLAGS = __WALL` -/
  | waitpid (pid : Option Nat) (nohang wall : Bool)
  | sleep
  /-- analysis of a signal by `event.display()` (`ptrace/debugger/ptrace_signal.py:222-231`) -/
  | display (obj pid : Nat)
  /-- reading the registers and arguments of a system call (`ptrace/syscall/ptrace_syscall.py`) -/
  | inspect (obj pid : Nat)
  deriving DecidableEq, Repr

/-- Reply of the kernel: success with a value and a status, failure with `errno`, or a
`KeyboardInterrupt` raised while the call was blocking. -/
inductive Reply where
  | ok (value : Nat) (status : Int)
  | err (errno : Nat)
  | interrupt
  deriving DecidableEq, Repr

/-- One logged system call. -/
structure Entry where
  call : Call
  reply : Reply
  /-- the registry when the call was made (ghost) -/
  dict : List (Nat × Nat)
  deriving DecidableEq, Repr

/-- A kernel: the reply to a call may depend on everything that happened before. -/
abbrev Kern := List Entry → Call → Reply

/-- A `PtraceSyscall` object (`ptrace/syscall/ptrace_syscall.py:40-65`). -/
structure SysObj where
  /-- identity of the object: the number of system calls made before it was created (ghost) -/
  ident : Nat
  /-- the registers it was created from: they determine the name and the arguments -/
  entry : Nat
  /-- `result`, `none` for `None` -/
  result : Option Nat := none
  deriving DecidableEq, Repr

/-- `SyscallState` (`ptrace/debugger/syscall_state.py`). -/
structure SysState where
  /-- `next_event == "exit"` -/
  nextExit : Bool := false
  /-- `syscall`, `none` for `None` -/
  syscall : Option SysObj := none
  /-- `name`, `none` for `None` -/
  name : Option Str := none
  /-- `ignore_callback` is set -/
  hasCallback : Bool := false
  deriving DecidableEq, Repr

/-- A `PtraceProcess` object (`ptrace/debugger/process.py:160-177`). -/
structure Proc where
  pid : Nat := 0
  running : Bool := false
  parent : Option Nat := none
  wasAttached : Bool := false
  isAttached : Bool := false
  isStopped : Bool := false
  isThread : Bool := false
  ss : SysState := {}
  deriving DecidableEq, Repr

/-- State of the debugger (`ptrace/debugger/debugger.py:64-72`), its process objects and the log. -/
structure DSt where
  heap : Nat → Proc
  next : Nat
  dict : List (Nat × Nat)
  list : List Nat
  options : Nat
  traceFork : Bool
  traceExec : Bool
  traceClone : Bool
  useSysgood : Bool
  log : List Entry

/-- Replace the fields of object `o`. -/
def setProc (s : DSt) (o : Nat) (p : Proc) : DSt :=
  { s with heap := fun i => if i = o then p else s.heap i }

/-- Assign attributes of object `o`. -/
def updProc (o : Nat) (f : Proc → Proc) : Py DSt Unit := fun s => (.ok (), setProc s o (f (s.heap o)))

/-- Make one system call. -/
def sysc (K : Kern) (c : Call) : Py DSt Reply := fun s =>
  (.ok (K s.log c), { s with log := s.log ++ [⟨c, K s.log c, s.dict⟩] })

/-- A `ptrace()` request (`ptrace/binding/func.py:147-169`): a failure is a `PtraceError`. -/
def ptraceCall (K : Kern) (c : Call) : Py DSt Nat :=
  Py.bind (sysc K c) fun r =>
  match r with
  | .ok v _ => Py.pure v
  | .err e => Py.raise (.ptrace (some e))
  | .interrupt => Py.raise .interrupt

/-- A function of the `os` module: a failure is an `OSError`. -/
def osCall (K : Kern) (c : Call) : Py DSt (Nat × Int) :=
  Py.bind (sysc K c) fun r =>
  match r with
  | .ok v st => Py.pure (v, st)
  | .err e => Py.raise (.os e)
  | .interrupt => Py.raise .interrupt

/-- `PtraceDebugger.deleteProcess(process=o)` (`ptrace/debugger/debugger.py:225-241`); `list.remove`
compares by identity (`PtraceProcess` defines no `__eq__`). -/
def deleteProcess (o : Nat) : Py DSt Unit := fun s =>
  (.ok (), { s with
    dict := dictDel s.dict (s.heap o).pid
    list := s.list.erase o })

/-- `PtraceDebugger.deleteProcess(pid=pid)` (`ptrace/debugger/debugger.py:225-241`). -/
def deletePid (pid : Nat) : Py DSt Unit := fun s =>
  match dictGet s.dict pid with
  | some o => deleteProcess o s
  | none => (.ok (), s)

/-- `PtraceProcess.detach` (`ptrace/debugger/process.py:291-298`). -/
def detach (K : Kern) (o : Nat) : Py DSt Unit := fun s =>
  if (s.heap o).isAttached then
    Py.bind (updProc o fun p => { p with isAttached := false }) (fun _ =>
    Py.bind (if (s.heap o).running then
        Py.bind (ptraceCall K (.detach o (s.heap o).pid)) fun _ => Py.pure ()
      else Py.pure ()) fun _ =>
    deleteProcess o) s
  else (.ok (), s)

/-- `PtraceProcess._notRunning` (`ptrace/debugger/process.py:300-307`). -/
def notRunning (K : Kern) (o : Nat) : Py DSt Unit :=
  Py.bind (updProc o fun p => { p with running := false }) fun _ => detach K o

/-- `PtraceProcess.filterSignal` (`ptrace/debugger/process.py:466-471`). -/
def filterSignal (signum : Nat) : Nat := if signum = SIGTRAP then 0 else signum

/-- `PtraceProcess.cont` (`ptrace/debugger/process.py:721-724`). -/
def procCont (K : Kern) (o signum : Nat) : Py DSt Unit := fun s =>
  Py.bind (ptraceCall K (.cont o (s.heap o).pid (filterSignal signum))) (fun _ =>
  updProc o fun p => { p with isStopped := false }) s

/-- `PtraceProcess.syscall` (`ptrace/debugger/process.py:473-476`). -/
def procSyscall (K : Kern) (o signum : Nat) : Py DSt Unit := fun s =>
  Py.bind (ptraceCall K (.syscall o (s.heap o).pid (filterSignal signum))) (fun _ =>
  updProc o fun p => { p with isStopped := false }) s

/-- `PtraceProcess.singleStep` (`ptrace/debugger/process.py:461-464`). -/
def procSingleStep (K : Kern) (o : Nat) : Py DSt Unit := fun s =>
  Py.bind (ptraceCall K (.singlestep o (s.heap o).pid)) (fun _ => Py.pure ()) s

/-- `PtraceProcess.kill` (`ptrace/debugger/process.py:309-310`). -/
def procKill (K : Kern) (o signum : Nat) : Py DSt Unit := fun s =>
  Py.bind (osCall K (.kill o (s.heap o).pid signum)) (fun _ => Py.pure ()) s

/-- `PtraceProcess.setoptions` (`ptrace/debugger/process.py:726-730`). -/
def procSetoptions (K : Kern) (o options : Nat) : Py DSt Unit := fun s =>
  Py.bind (ptraceCall K (.setoptions o (s.heap o).pid options)) (fun _ => Py.pure ()) s

/-- `PtraceProcess.attach` (`ptrace/debugger/process.py:185-190`). -/
def procAttach (K : Kern) (o : Nat) : Py DSt Unit := fun s =>
  if (s.heap o).isAttached then (.ok (), s)
  else
    Py.bind (ptraceCall K (.attach o (s.heap o).pid)) (fun _ =>
    updProc o fun p => { p with isAttached := true }) s

/-- `event.display()`: may read the process and raise a `PtraceError`. -/
def eventDisplay (K : Kern) (o : Nat) : Py DSt Unit := fun s =>
  Py.bind (ptraceCall K (.display o (s.heap o).pid)) (fun _ => Py.pure ()) s

/-- Attributes after `PtraceProcess.__init__` (`ptrace/debugger/process.py:160-177`). -/
def freshProc (pid : Nat) (isAttached : Bool) (parent : Option Nat) (isThread : Bool) : Proc where
  pid := pid
  running := true
  parent := parent
  wasAttached := isAttached
  isAttached := true
  isStopped := true
  isThread := isThread

/-- `PtraceProcess.__init__` (`ptrace/debugger/process.py:160-177`): allocate the object; the attach
request comes first here, nothing refers to the object before the constructor returns. -/
def newProc (K : Kern) (pid : Nat) (isAttached : Bool) (parent : Option Nat) (isThread : Bool) :
    Py DSt Nat := fun s =>
  Py.bind (if isAttached then Py.pure ()
      else Py.bind (ptraceCall K (.attach s.next pid)) fun _ => Py.pure ()) (fun _ => fun t =>
    (.ok s.next, { setProc t s.next (freshProc pid isAttached parent isThread) with next := s.next + 1 })) s

/-- `self.dict[pid] = process; self.list.append(process)` (`ptrace/debugger/debugger.py:85-86`). -/
def register (pid o : Nat) : Py DSt Unit := fun s =>
  (.ok (), { s with
    dict := dictSet s.dict pid o
    list := s.list ++ [o] })

/-- `_wait_event_pid(wanted_pid, blocking)`, as a parameter of the functions it calls back. -/
abbrev WaitPid := Nat → Bool → Py DSt (Option Event)

/-- Body of `waitSignals` once an event is there (`ptrace/debugger/debugger.py:204-209`);
`raise None` is a `TypeError`. -/
def filterEvent (signals : List Nat) (e : Option Event) : Py DSt Event :=
  match e with
  | some (.signal o signum) =>
    if signals.contains signum || signals.isEmpty then Py.pure (.signal o signum)
    else Py.raise (.event (.signal o signum))
  | some ev => Py.raise (.event ev)
  | none => Py.raise .type

/-- `PtraceDebugger.waitSignals(*signals, pid=pid)` (`ptrace/debugger/debugger.py:195-209`). -/
def waitSignalsPid (W : WaitPid) (signals : List Nat) (pid : Nat) : Py DSt Event :=
  Py.bind (W pid true) (filterEvent signals)

/-- The `except` clauses of `addProcess` (`ptrace/debugger/debugger.py:89-99`). -/
def addProcessExcept (K : Kern) (o : Nat) (e : Exc) : Py DSt Unit :=
  match e with
  | .interrupt => Py.pure ()
  | .event (.signal q _) => eventDisplay K q
  | e =>
    Py.bind (updProc o fun p => { p with isAttached := false }) fun _ =>
    Py.bind (detach K o) fun _ =>
    Py.raise e

/-- `try: process.waitSignals(SIGTRAP, SIGSTOP) except ...` (`ptrace/debugger/debugger.py:87-99`). -/
def addProcessWait (K : Kern) (W : WaitPid) (o pid : Nat) : Py DSt Unit := fun s =>
  match waitSignalsPid W [SIGTRAP, SIGSTOP] pid s with
  | (.ok _, s') => (.ok (), s')
  | (.error e, s') => addProcessExcept K o e s'

/-- `if HAS_PTRACE_EVENTS and self.options: process.setoptions(self.options)`
(`ptrace/debugger/debugger.py:100-101`). -/
def addProcessOptions (K : Kern) (o : Nat) : Py DSt Unit := fun s =>
  if s.options ≠ 0 then procSetoptions K o s.options s else (.ok (), s)

/-- `PtraceDebugger.addProcess` (`ptrace/debugger/debugger.py:74-102`). -/
def addProcess (K : Kern) (W : WaitPid) (pid : Nat) (isAttached : Bool) (parent : Option Nat)
    (isThread : Bool) : Py DSt Nat := fun s =>
  if dictHas s.dict pid then (.error .key, s)
  else
    Py.bind (newProc K pid isAttached parent isThread) (fun o =>
    Py.bind (register pid o) fun _ =>
    Py.bind (addProcessWait K W o pid) fun _ =>
    Py.bind (addProcessOptions K o) fun _ =>
    Py.pure o) s

/-- `PtraceProcess.ptraceEvent` (`ptrace/debugger/process.py:401-413`). -/
def ptraceEvent (K : Kern) (W : WaitPid) (o : Nat) (event : Int) : Py DSt Event := fun s =>
  if event = PTRACE_EVENT_FORK ∨ event = PTRACE_EVENT_VFORK ∨ event = PTRACE_EVENT_CLONE then
    Py.bind (ptraceCall K (.geteventmsg o (s.heap o).pid)) (fun newPid =>
    Py.bind (addProcess K W newPid true (some o) (decide (event = PTRACE_EVENT_CLONE))) fun q =>
    Py.pure (.newProcess q)) s
  else if event = PTRACE_EVENT_EXEC then (.ok (.execution o), s)
  else (.error (.ptrace none), s)

/-- `PtraceProcess.processStatus` with the methods it calls (`ptrace/debugger/process.py:355-399`). -/
def processStatus (K : Kern) (W : WaitPid) (o : Nat) (status : Int) : Py DSt Event :=
  match classify true status with
  | .exited code => Py.bind (notRunning K o) fun _ => Py.pure (.exit o none (some code))
  | .killed signum => Py.bind (notRunning K o) fun _ => Py.pure (.exit o (some signum) none)
  | .unknown => Py.raise (.ptrace none)
  | .event event => ptraceEvent K W o event
  | .signal signum =>
    Py.bind (updProc o fun p => { p with isStopped := true }) fun _ => Py.pure (.signal o signum)

/-- `PtraceProcess.processTerminated` (`ptrace/debugger/process.py:380-382`). -/
def processTerminated (K : Kern) (o : Nat) : Py DSt Event :=
  Py.bind (notRunning K o) fun _ => Py.pure (.exit o none none)

/-- The final check of `_waitpid` (`ptrace/debugger/debugger.py:139-142`). -/
def checkPid (wanted : Nat) (blocking : Bool) (r : Nat × Int) : Py DSt (Nat × Int) :=
  if (blocking || r.1 ≠ 0) && wanted ≠ 0 && r.1 ≠ wanted then Py.raise (.ptrace none)
  else Py.pure r

/-- `PtraceDebugger._waitpid` (`ptrace/debugger/debugger.py:116-142`). -/
def waitpidRaw (K : Kern) (wanted : Nat) (blocking : Bool) : Py DSt (Nat × Int) := fun s =>
  if wanted ≠ 0 then
    match dictGet s.dict wanted with
    | none => (.error (.ptrace none), s)
    | some o =>
      Py.bind (osCall K (.waitpid (some wanted) (!blocking) (s.heap o).isThread)) (checkPid wanted blocking) s
  else Py.bind (osCall K (.waitpid none (!blocking) false)) (checkPid wanted blocking) s

/-- What `_wait_event_pid` does with a reply of `waitpid` (`ptrace/debugger/debugger.py:160-166`);
`loop` is the next iteration. -/
def waitReply (K : Kern) (W : WaitPid) (loop : Py DSt (Option Event)) (blocking : Bool) (r : Nat × Int) :
    Py DSt (Option Event) := fun s =>
  if !blocking && r.1 = 0 then (.ok none, s)
  else
    match dictGet s.dict r.1 with
    | some o => Py.bind (processStatus K W o r.2) (fun e => Py.pure (some e)) s
    | none => loop s

/-- The `except OSError` clause of `_wait_event_pid` (`ptrace/debugger/debugger.py:154-159`). -/
def waitExcept (K : Kern) (wanted : Nat) (e : Exc) : Py DSt (Option Event) := fun s =>
  if e = .os ECHILD then
    match dictGet s.dict wanted with
    | some o => Py.bind (processTerminated K o) (fun e => Py.pure (some e)) s
    | none => (.error .key, s)
  else (.error e, s)

/-- `PtraceDebugger._wait_event_pid` (`ptrace/debugger/debugger.py:144-166`); the fuel bounds the loop
and the nesting of new process events. -/
def waitEventPid (K : Kern) : Nat → WaitPid
  | 0, _, _ => Py.raise .diverge
  | n + 1, wanted, blocking => fun s =>
    match waitpidRaw K wanted blocking s with
    | (.ok r, s') => waitReply K (waitEventPid K n) (waitEventPid K n wanted blocking) blocking r s'
    | (.error e, s') => waitExcept K wanted e s'

/-- `for pid in pids: ...` of `_wait_event` (`ptrace/debugger/debugger.py:176-179`). -/
def pollPids (W : WaitPid) : List Nat → Py DSt (Option Event)
  | [] => Py.pure none
  | pid :: pids => Py.bind (W pid false) fun e =>
    match e with
    | some ev => Py.pure (some ev)
    | none => pollPids W pids

/-- `PtraceDebugger._wait_event(None, blocking)` (`ptrace/debugger/debugger.py:168-185`). -/
def waitAny (K : Kern) (fuel : Nat) : Nat → Bool → Py DSt (Option Event)
  | 0, _ => Py.raise .diverge
  | n + 1, blocking => fun s =>
    match s.dict.map Prod.fst with
    | [] => (.error .index, s)
    | [pid] => waitEventPid K fuel pid blocking s
    | pids =>
      Py.bind (pollPids (waitEventPid K fuel) pids) (fun e =>
        match e with
        | some ev => Py.pure (some ev)
        | none =>
          if blocking then Py.bind (osCall K .sleep) fun _ => waitAny K fuel n blocking
          else Py.pure none) s

/-- `PtraceDebugger.waitProcessEvent` (`ptrace/debugger/debugger.py:187-193`). -/
def waitProcessEvent (K : Kern) (fuel : Nat) (pid : Option Nat) (blocking : Bool) : Py DSt (Option Event) :=
  match pid with
  | some pid => waitEventPid K fuel pid blocking
  | none => waitAny K fuel fuel blocking

/-- `PtraceDebugger.waitSignals` (`ptrace/debugger/debugger.py:195-209`). -/
def waitSignals (K : Kern) (fuel : Nat) (signals : List Nat) (pid : Option Nat) : Py DSt Event :=
  Py.bind (waitProcessEvent K fuel pid true) (filterEvent signals)

/-- `PtraceDebugger.waitSyscall` (`ptrace/debugger/debugger.py:211-223`); `process` is an object. -/
def waitSyscall (K : Kern) (fuel : Nat) (process : Option Nat) : Py DSt Event := fun s =>
  let signum := if s.useSysgood then SIGTRAP ||| 0x80 else SIGTRAP
  waitSignals K fuel [signum] (process.map fun o => (s.heap o).pid) s

/-- `PtraceProcess.waitExit` (`ptrace/debugger/process.py:334-353`). -/
def waitExit (K : Kern) (fuel : Nat) (o : Nat) : Nat → Py DSt Unit
  | 0 => Py.raise .diverge
  | n + 1 => fun s =>
    Py.bind (waitEventPid K fuel (s.heap o).pid true) (fun e =>
      match e with
      | some (.exit _ _ _) => Py.pure ()
      | some (.signal _ signum) =>
        Py.bind (if signum ≠ SIGTRAP ∧ signum ≠ SIGSTOP then procCont K o signum else procCont K o 0)
          fun _ => waitExit K fuel o n
      | some ev => Py.raise (.event ev)
      | none => Py.raise .type) s

/-- First half of `terminate` (`ptrace/debugger/process.py:316-326`): send `SIGKILL`; the result is
`done`. -/
def terminateKill (K : Kern) (o : Nat) : Py DSt Bool := fun s =>
  match (if (s.heap o).isStopped then procCont K o SIGKILL else procKill K o SIGKILL) s with
  | (.ok _, s') => (.ok false, s')
  | (.error e, s') => if e = .ptrace (some ESRCH) then (.ok true, s') else (.error e, s')

/-- `PtraceProcess.terminate(wait_exit)` (`ptrace/debugger/process.py:312-332`). -/
def terminate (K : Kern) (fuel : Nat) (o : Nat) (wait : Bool) : Py DSt Bool := fun s =>
  if !(s.heap o).running || !(s.heap o).wasAttached then (.ok true, s)
  else
    Py.bind (terminateKill K o) (fun done =>
      if !done && !wait then Py.pure false
      else
        Py.bind (if done then Py.pure () else waitExit K fuel o fuel) fun _ =>
        Py.bind (notRunning K o) fun _ => Py.pure true) s

/-- Loop of `quit` (`ptrace/debugger/debugger.py:112-114`). -/
def quitLoop (K : Kern) (fuel : Nat) : List Nat → Py DSt Unit
  | [] => Py.pure ()
  | o :: os =>
    Py.bind (terminate K fuel o true) fun _ =>
    Py.bind (detach K o) fun _ =>
    quitLoop K fuel os

/-- `PtraceDebugger.quit` (`ptrace/debugger/debugger.py:104-114`). -/
def quit (K : Kern) (fuel : Nat) : Py DSt Unit := fun s => quitLoop K fuel s.list.reverse s

/-- `traceFork` (`ptrace/debugger/debugger.py:243-252`). -/
def traceFork : Py DSt Unit := fun s =>
  (.ok (), { s with
    options := s.options ||| (PTRACE_O_TRACEFORK ||| PTRACE_O_TRACEVFORK)
    traceFork := true })

/-- `traceExec` (`ptrace/debugger/debugger.py:254-262`). -/
def traceExec : Py DSt Unit := fun s =>
  (.ok (), { s with
    options := s.options ||| PTRACE_O_TRACEEXEC
    traceExec := true })

/-- `traceClone` (`ptrace/debugger/debugger.py:264-272`). -/
def traceClone : Py DSt Unit := fun s =>
  (.ok (), { s with
    options := s.options ||| PTRACE_O_TRACECLONE
    traceClone := true })

/-- `enableSysgood` (`ptrace/debugger/debugger.py:274-284`). -/
def enableSysgood : Py DSt Unit := fun s =>
  (.ok (), { s with
    options := s.options ||| PTRACE_O_TRACESYSGOOD
    useSysgood := true })

/-- `PtraceDebugger.__init__` (`ptrace/debugger/debugger.py:64-72`). -/
def newDebugger : DSt :=
  (enableSysgood
    { heap := fun _ => {}, next := 0, dict := [], list := [], options := 0, traceFork := false,
      traceExec := false, traceClone := false, useSysgood := false, log := [] }).2

/-- `debugger[pid]` (`ptrace/debugger/debugger.py:286-287`), `none` for a `KeyError`. -/
def getitem (s : DSt) (pid : Nat) : Option Nat := dictGet s.dict pid

/-- `iter(debugger)` (`ptrace/debugger/debugger.py:289-290`). -/
def iterate (s : DSt) : List Nat := s.list

/-- `len(debugger)` (`ptrace/debugger/debugger.py:292-293`). -/
def length (s : DSt) : Nat := s.list.length

/-- Calls a user of the library can make. -/
inductive Op where
  | addProcess (pid : Nat) (isAttached : Bool) (parent : Option Nat) (isThread : Bool)
  | deleteProcess (o : Nat)
  | deletePid (pid : Nat)
  | quit
  | waitProcessEvent (pid : Option Nat) (blocking : Bool)
  | waitSignals (signals : List Nat) (pid : Option Nat)
  | waitSyscall (o : Option Nat)
  | traceFork
  | traceExec
  | traceClone
  | enableSysgood
  | attach (o : Nat)
  | detach (o : Nat)
  | cont (o signum : Nat)
  | syscall (o signum : Nat)
  | singleStep (o : Nat)
  | kill (o signum : Nat)
  | setoptions (o options : Nat)
  | terminate (o : Nat) (wait : Bool)
  | waitExit (o : Nat)
  | processTerminated (o : Nat)
  deriving DecidableEq, Repr

/-- Forget the result. -/
def void {α : Type} (m : Py DSt α) : Py DSt Unit := Py.bind m fun _ => Py.pure ()

/-- Run a method of object `o`; there is no such object if it was never allocated. -/
def onObj {α : Type} (o : Nat) (m : Py DSt α) : Py DSt Unit := fun s =>
  if o < s.next then void m s else (.ok (), s)

/-- One call. -/
def runOp (K : Kern) (fuel : Nat) : Op → Py DSt Unit
  | .addProcess pid isAttached parent isThread =>
    void (addProcess K (waitEventPid K fuel) pid isAttached parent isThread)
  | .deleteProcess o => onObj o (deleteProcess o)
  | .deletePid pid => deletePid pid
  | .quit => quit K fuel
  | .waitProcessEvent pid blocking => void (waitProcessEvent K fuel pid blocking)
  | .waitSignals signals pid => void (waitSignals K fuel signals pid)
  | .waitSyscall none => void (waitSyscall K fuel none)
  | .waitSyscall (some o) => onObj o (waitSyscall K fuel (some o))
  | .traceFork => traceFork
  | .traceExec => traceExec
  | .traceClone => traceClone
  | .enableSysgood => enableSysgood
  | .attach o => onObj o (procAttach K o)
  | .detach o => onObj o (detach K o)
  | .cont o signum => onObj o (procCont K o signum)
  | .syscall o signum => onObj o (procSyscall K o signum)
  | .singleStep o => onObj o (procSingleStep K o)
  | .kill o signum => onObj o (procKill K o signum)
  | .setoptions o options => onObj o (procSetoptions K o options)
  | .terminate o wait => onObj o (terminate K fuel o wait)
  | .waitExit o => onObj o (waitExit K fuel o fuel)
  | .processTerminated o => onObj o (processTerminated K o)

/-- A history of calls: the caller goes on after an exception. -/
def runOps (K : Kern) (fuel : Nat) : List Op → DSt → DSt
  | [], s => s
  | op :: ops, s => runOps K fuel ops (runOp K fuel op s).2

end PT
