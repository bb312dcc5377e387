import Verif.Model.Strace
import Verif.Model.Signals

/-
Model of the command line debugger `gdb.py`: main loop, dispatch, `cont`, `signal`, `step`, `sys`, `attach`,
`switch`, `interrupt` and the handling of events.

* The dictionary `last_signal` is a function from process objects; `process` is the current object (it is
  never `None` in the main loop, `gdb.py:853-858`).
* `parseInteger` is a parameter here (`GdbCfg.parse`, a request per register read is part of it); it is
  modelled in `Model/Expr`.
* Commands that only look at or edit the memory and registers of the current process, and the breakpoint
  handling of `cont` and `step`, are one `inspect` request each: it may fail, and its value may be an error
  message (a value different from 0). Output is dropped.
-/

namespace PT

/-- State of `Gdb` (`gdb.py:141-149`) without `previous_command`. -/
structure GSt where
  dbg : DSt
  /-- `self.process` -/
  process : Nat
  /-- `self.last_signal` -/
  last : Nat → Option Nat

/-- What the commands depend on. -/
structure GdbCfg where
  /-- white space, as in `str.strip()` -/
  space : Char → Bool
  /-- `parseInteger` -/
  parse : DSt → Str → Except Exc Nat
  /-- `SIGNALS`, the table from names to numbers (`gdb.py:48`) -/
  signals : List (Str × Nat)
  /-- `err.pid` of a `PtraceError` raised in this state -/
  errPid : DSt → Nat
  sys : SysCfg

/-- Run code of the library. -/
def lift {α : Type} (m : Py DSt α) : Py GSt α := fun g => ((m g.dbg).1, { g with dbg := (m g.dbg).2 })

/-- `self.process = process` if it is another one (`Gdb.switchProcess`, `gdb.py:660-664`). -/
def switchProcess (o : Nat) : Py GSt Unit := fun g => (.ok (), { g with process := o })

/-- `del self.last_signal[o]`, ignoring a missing key. -/
def forget (o : Nat) : Py GSt Unit := fun g =>
  (.ok (), { g with last := fun i => if i = o then none else g.last i })

/-- `Gdb.processSignal` (`gdb.py:738-742`). -/
def processSignal (K : Kern) (o signum : Nat) : Py GSt Unit :=
  Py.bind (lift (eventDisplay K o)) fun _ =>
  Py.bind (switchProcess o) fun _ => fun g =>
  (.ok (), { g with last := fun i => if i = g.process then some signum else g.last i })

/-- The signal `_continueProcess` sends (`gdb.py:168-169`); 0 for `None`. -/
def pendingSignal (g : GSt) (o signum : Nat) : Nat :=
  if signum = 0 then (g.last o).getD 0 else signum

/-- `Gdb._continueProcess` (`gdb.py:167-179`); a signal of 0 stands for `None`. -/
def continueProcess (K : Kern) (o signum : Nat) : Py GSt Unit := fun g =>
  if pendingSignal g o signum ≠ 0 then
    Py.bind (lift (procCont K o (pendingSignal g o signum))) (fun _ => forget o) g
  else lift (procCont K o 0) g

/-- The first loop of `Gdb.cont` (`gdb.py:182-187`). -/
def contAll (K : Kern) (signum : Nat) : List Nat → Py GSt Unit
  | [] => Py.pure ()
  | o :: os =>
    Py.bind (lift (sysClear o)) fun _ =>
    Py.bind (fun g => (if o = g.process then continueProcess K o signum else continueProcess K o 0) g) fun _ =>
    contAll K signum os

/-- One request for the current process: the value of the reply (`gdb.py`, see above). -/
def look (K : Kern) : Py GSt Nat := fun g =>
  lift (ptraceCall K (.inspect g.process (g.dbg.heap g.process).pid)) g

/-- What `Gdb.cont` does with the signal (`gdb.py:194-205`). -/
def contSignal (K : Kern) (ev : Event) : Py GSt Bool :=
  match ev with
  | .signal o signum =>
    if signum = SIGTRAP then Py.bind (look K) fun _ => Py.pure true
    else Py.bind (processSignal K o signum) fun _ => Py.pure true
  | _ => Py.pure true

/-- `Gdb.cont` (`gdb.py:181-205`); the result tells that there is no error message. -/
def gdbCont (K : Kern) (fuel signum : Nat) : Py GSt Bool := fun g =>
  Py.bind (contAll K signum (iterate g.dbg)) (fun _ =>
  Py.bind (lift (waitSignals K fuel [] none)) (contSignal K)) g

/-- `except ValueError as err: return str(err)` (`gdb.py:384`, `561`, `630`, `652`). -/
def argError (e : Exc) : Py GSt Bool := if e = .value then Py.pure false else Py.raise e

/-- `Gdb.signal` (`gdb.py:381-394`). -/
def gdbSignal (K : Kern) (fuel : Nat) (G : GdbCfg) (arg : Str) : Py GSt Bool := fun g =>
  match parseSignum G.signals (fun text => (G.parse g.dbg text).map Int.ofNat) arg with
  | .error e => argError e g
  | .ok signum =>
    let r := gdbCont K fuel signum.toNat g
    (r.1, (forget g.process r.2).2)

/-- `Gdb.attachProcess` (`gdb.py:558-564`). -/
def gdbAttach (K : Kern) (fuel : Nat) (G : GdbCfg) (arg : Str) : Py GSt Bool := fun g =>
  match G.parse g.dbg arg with
  | .error e => argError e g
  | .ok pid =>
    Py.bind (lift (addProcess K (waitEventPid K fuel) pid false none false)) (fun o =>
    Py.bind (switchProcess o) fun _ => Py.pure true) g

/-- The end of `Gdb.step`: wait for the trap, then remove the breakpoint (`gdb.py:588-597`). After an
exception nothing is written to a process that is not running (`ptrace/debugger/breakpoint.py:52-53`). -/
def stepWait (K : Kern) (fuel : Nat) (breakpoint : Bool) : Py GSt Bool := fun g =>
  match lift (waitSignals K fuel [SIGTRAP] (some (g.dbg.heap g.process).pid)) g with
  | (.ok _, g') => (if breakpoint then Py.bind (look K) fun _ => Py.pure true else Py.pure true) g'
  | (.error e, g') =>
    (if breakpoint && (g'.dbg.heap g'.process).running then Py.bind (look K) fun _ => Py.raise e
     else Py.raise e) g'

/-- `Gdb.step` (`gdb.py:566-598`) where the processor has single steps. -/
def gdbStep (K : Kern) (fuel : Nat) (enter : Bool) : Py GSt Bool :=
  if enter then
    Py.bind (fun g => lift (procSingleStep K g.process) g) fun _ => stepWait K fuel false
  else
    Py.bind (look K) fun v =>
    if v ≠ 0 then Py.pure false
    else Py.bind (fun g => lift (procCont K g.process 0) g) fun _ => stepWait K fuel true

/-- `Gdb.until` (`gdb.py:627-637`). -/
def gdbUntil (K : Kern) (fuel : Nat) (G : GdbCfg) (arg : Str) : Py GSt Bool := fun g =>
  match G.parse g.dbg arg with
  | .error e => argError e g
  | .ok _ => gdbStep K fuel false g

/-- `Gdb.syscallTrace` (`gdb.py:602-625`). -/
def gdbSys (K : Kern) (fuel : Nat) (G : GdbCfg) : Py GSt Bool :=
  Py.bind (fun g => lift (procSyscall K g.process 0) g) fun _ =>
  Py.bind (fun g => lift (waitSyscall K fuel (some g.process)) g) fun _ =>
  Py.bind (fun g => lift (sysEvent K fuel G.sys g.process) g) fun _ => Py.pure true

/-- Position of `o` in the list, as `list.index` (`none` for a `ValueError`). -/
def indexOf (o : Nat) : List Nat → Option Nat
  | [] => none
  | x :: xs => if x = o then some 0 else (indexOf o xs).map (· + 1)

/-- `Gdb.switch("")` (`gdb.py:640-648`). -/
def gdbSwitchNext : Py GSt Bool := fun g =>
  if g.dbg.list.length = 1 then (.ok false, g)
  else
    match indexOf g.process g.dbg.list with
    | none => (.error .value, g)
    | some i =>
      match g.dbg.list[(i + 1) % g.dbg.list.length]? with
      | some o => Py.bind (switchProcess o) (fun _ => Py.pure true) g
      | none => (.error .index, g)

/-- `Gdb.switch` (`gdb.py:639-658`). -/
def gdbSwitch (G : GdbCfg) (arg : Str) : Py GSt Bool := fun g =>
  if arg.isEmpty then gdbSwitchNext g
  else
    match G.parse g.dbg arg with
    | .error e => argError e g
    | .ok pid =>
      match getitem g.dbg pid with
      | some o => Py.bind (switchProcess o) (fun _ => Py.pure true) g
      | none => (.ok false, g)

/-- Commands (`gdb.py:298-360`). -/
inductive Command where
  | cont
  | signal (arg : Str)
  | attach (arg : Str)
  | step (enter : Bool)
  | until (arg : Str)
  | sys
  | switch (arg : Str)
  /-- looks at or edits the current process -/
  | look
  /-- `proclist`, `dbginfo`, `help`, `breakpoints`, `signals`, `follow`, `showfollow`, `resetfollow` -/
  | info
  | unknown
  deriving DecidableEq, Repr

/-- Run a command: false for an error message (`gdb.py:361-365`). -/
def runCommand (K : Kern) (fuel : Nat) (G : GdbCfg) : Command → Py GSt Bool
  | .cont => gdbCont K fuel 0
  | .signal arg => gdbSignal K fuel G arg
  | .attach arg => gdbAttach K fuel G arg
  | .step enter => gdbStep K fuel enter
  | .until arg => gdbUntil K fuel G arg
  | .sys => gdbSys K fuel G
  | .switch arg => gdbSwitch G arg
  | .look => Py.bind (look K) fun v => Py.pure (decide (v = 0))
  | .info => Py.pure true
  | .unknown => Py.pure false

/-- Dispatch of `Gdb.execute` (`gdb.py:299-360`). -/
def parseCommand (c : Str) : Command :=
  if c = "cont".toList then .cont
  else if c = "proc".toList then .look
  else if c = "proclist".toList then .info
  else if "attach ".toList.isPrefixOf c then .attach (c.drop 7)
  else if c = "regs".toList then .look
  else if c = "stack".toList then .look
  else if c = "gcore".toList then .look
  else if c = "backtrace".toList then .look
  else if c = "where".toList ∨ "where ".toList.isPrefixOf c then .look
  else if c = "where2".toList ∨ "where2 ".toList.isPrefixOf c then .look
  else if c = "maps".toList then .look
  else if c = "dbginfo".toList then .info
  else if c = "step".toList then .step false
  else if c = "stepi".toList then .step true
  else if c = "sys".toList then .sys
  else if c = "help".toList then .info
  else if "set ".toList.isPrefixOf c then .look
  else if "until ".toList.isPrefixOf c then .until (c.drop 6)
  else if "switch".toList.isPrefixOf c ∨ c = "switch".toList then .switch (c.drop 6)
  else if "break ".toList.isPrefixOf c then .look
  else if "breakpoints".toList.isPrefixOf c then .info
  else if "signals".toList.isPrefixOf c then .info
  else if "delete ".toList.isPrefixOf c then .look
  else if "hexdump ".toList.isPrefixOf c then .look
  else if "signal ".toList.isPrefixOf c then .signal (c.drop 7)
  else if "print ".toList.isPrefixOf c then .look
  else if "follow ".toList.isPrefixOf c then .info
  else if c = "showfollow".toList then .info
  else if c = "resetfollow".toList then .info
  else if c = "xray".toList then .look
  else .unknown

/-- `Gdb.execute` (`gdb.py:298-365`). -/
def gdbExecute (K : Kern) (fuel : Nat) (G : GdbCfg) (c : Str) : Py GSt Bool :=
  runCommand K fuel G (parseCommand c)

/-- First loop of `Gdb.interrupt` (`gdb.py:755-765`): the processes to wait for. `isTraced()` reads the state
of the process: value 0 is false. -/
def interruptSend (K : Kern) : List Nat → Py DSt (List Nat)
  | [] => Py.pure []
  | o :: os => fun s =>
    if (s.heap o).isStopped then interruptSend K os s
    else
      Py.bind (ptraceCall K (.inspect o (s.heap o).pid)) (fun traced =>
        if traced ≠ 0 then interruptSend K os
        else
          Py.bind (procKill K o SIGINT) fun _ =>
          Py.bind (interruptSend K os) fun rest => Py.pure (o :: rest)) s

/-- Second loop of `Gdb.interrupt` (`gdb.py:766-774`). -/
def interruptWait (K : Kern) (fuel : Nat) : List Nat → Py DSt Unit
  | [] => Py.pure ()
  | o :: os =>
    Py.bind (fun s =>
      match waitSignals K fuel [SIGINT] (some (s.heap o).pid) s with
      | (.ok _, t) => (.ok (), t)
      | (.error (.event (.signal q _)), t) => eventDisplay K q t
      | (.error .interrupt, t) => (.ok (), t)
      | (.error e, t) => (.error e, t)) fun _ =>
    interruptWait K fuel os

/-- `Gdb.interrupt` (`gdb.py:754-774`). -/
def gdbInterrupt (K : Kern) (fuel : Nat) : Py GSt Unit := fun g =>
  lift (Py.bind (interruptSend K (iterate g.dbg)) (interruptWait K fuel)) g

/-- `Gdb.nextProcess` (`gdb.py:666-671`). -/
def nextProcess : Py GSt Unit := fun g =>
  match iterate g.dbg with
  | o :: _ => switchProcess o g
  | [] => (.ok (), g)

/-- `Gdb.deleteProcess` (`gdb.py:776-784`). -/
def gdbDeleteProcess (K : Kern) (pid : Nat) : Py GSt Unit := fun g =>
  match getitem g.dbg pid with
  | none => (.ok (), g)
  | some o =>
    Py.bind (lift (processTerminated K o)) (fun _ => fun g' =>
      if o = g'.process then nextProcess g' else (.ok (), g')) g

/-- The `except` clauses of the main loop (`gdb.py:830-846`). -/
def gdbExcept (K : Kern) (fuel : Nat) (G : GdbCfg) (e : Exc) : Py GSt Unit :=
  match e with
  | .interrupt => gdbInterrupt K fuel
  | .event (.newProcess _) => Py.pure ()
  | .event (.signal o signum) => processSignal K o signum
  | .event (.exit _ _ _) => nextProcess
  | .event (.execution o) => Py.bind (switchProcess o) fun _ => gdbInterrupt K fuel
  | .ptrace errno => fun g => if errno = some ESRCH then gdbDeleteProcess K (G.errPid g.dbg) g else (.ok (), g)
  | e => Py.raise e

/-! ### the main loop, for any command interpreter -/

/-- `for command in command_str.split(";")` (`gdb.py:817-827`): the final value of `ok`. -/
def runLine {σ : Type} (execute : Str → Py σ Bool) (space : Char → Bool) : List Str → Py σ Bool
  | [] => Py.pure true
  | c :: cs => Py.bind (execute (strip space c)) fun ok => if ok then runLine execute space cs else Py.pure false

/-- What `raw_input` gives. -/
inductive Input where
  | line (text : Str)
  | eof
  | interrupt
  deriving DecidableEq, Repr

/-- `"quit"` -/
def quitText : Str := ['q', 'u', 'i', 't']

/-- `Gdb.mainLoop` once a command line is there (`gdb.py:807-847`); the state is `previous_command` and the
rest. -/
def mainLine {σ : Type} (execute : Str → Py σ Bool) (except : Exc → Py σ Unit) (space : Char → Bool)
    (command : Str) : Py (Option Str × σ) Bool := fun s =>
  if command = quitText then (.ok true, (none, s.2))
  else
    match runLine execute space (splitOn ';' command) s.2 with
    | (.ok ok, t) => (.ok false, (if ok then some command else none, t))
    | (.error e, t) =>
      match except e t with
      | (.ok _, u) => (.ok false, (none, u))
      | (.error e', u) => (.error e', (none, u))

/-- `Gdb.mainLoop` (`gdb.py:790-847`): the result tells to quit. -/
def mainLoop {σ : Type} (execute : Str → Py σ Bool) (except : Exc → Py σ Unit) (interrupt : Py σ Unit)
    (space : Char → Bool) (input : Input) : Py (Option Str × σ) Bool := fun s =>
  match input with
  | .eof => (.ok true, s)
  | .interrupt =>
    match interrupt s.2 with
    | (.ok _, t) => (.ok false, (s.1, t))
    | (.error e, t) => (.error e, (s.1, t))
  | .line text =>
    let command := strip space text
    if command.isEmpty then
      match s.1 with
      | some previous => if previous.isEmpty then (.ok false, s) else mainLine execute except space previous s
      | none => (.ok false, s)
    else mainLine execute except space command s

/-- The main loop of `gdb.py`. -/
def gdbLoop (K : Kern) (fuel : Nat) (G : GdbCfg) (input : Input) : Py (Option Str × GSt) Bool :=
  mainLoop (gdbExecute K fuel G) (gdbExcept K fuel G) (gdbInterrupt K fuel) G.space input

end PT
