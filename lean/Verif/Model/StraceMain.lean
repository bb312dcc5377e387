import Verif.Model.Lines

/-
Model of `SyscallTracer._main` with its output: the line about the process that is traced, the lines of the loop (`Model/Lines`), and the line
about an exception that ends the run. With the output removed it is `straceMain` of `Model/Strace` (`C130_same`).
-/

namespace PT

/-- The texts used around the loop. -/
structure MainTexts where
  /-- `program[0]` -/
  program0 : Str
  /-- the text of the list `program` -/
  args : Str
  /-- the environment, which is not looked at -/
  vars : List Str
  /-- `str` of an exception -/
  text : Exc → Str
  /-- the lines of `writeError` (`error.py:35-52`, C103) -/
  failure : Exc → List Str

/-- The line about the process: `Attach process %s` (`ptrace/debugger/application.py:63-66`) or that of `createChild` (`strace.py:277-281`). -/
def firstLine (T : MainTexts) (pid : Nat) (isAttached : Bool) : Str :=
  if isAttached then createChildLine T.program0 T.args T.vars pid else "Attach process ".toList ++ pyDec pid

/-- The line about a process that cannot be attached (`ptrace/debugger/application.py:72-78`); `EPERM` is 1. -/
def attachErrorLine (T : MainTexts) (pid : Nat) (e : Exc) : Str :=
  match e with
  | .ptrace (some 1) =>
    "ERROR: You are not allowed to trace process ".toList ++ pyDec pid ++ " (permission denied or process already traced)".toList
  | e => "ERROR: Process can no be attached! ".toList ++ T.text e

/-- `Application.createProcess` (`ptrace/debugger/application.py:62-79`). -/
def createProcessOut (K : Kern) (fuel : Nat) (T : MainTexts) (pid : Nat) (isAttached : Bool) : Py (Con DSt) (Option Nat) :=
  Py.bind (say (firstLine T pid isAttached)) fun _ => fun d =>
  match inside (addProcess K (waitEventPid K fuel) pid isAttached none false) d with
  | (.ok o, e) => (.ok (some o), e)
  | (.error (.event (.exit o a b)), e) => Py.bind (say (attachErrorLine T pid (.event (.exit o a b)))) (fun _ => Py.pure none) e
  | (.error (.ptrace errno), e) => Py.bind (say (attachErrorLine T pid (.ptrace errno))) (fun _ => Py.pure none) e
  | (.error x, e) => (.error x, e)

/-- `SyscallTracer.runDebugger` (`strace.py:226-243`): `none` is `None`. -/
def straceRunOut (K : Kern) (fuel : Nat) (C : StraceCfg) (F : LineView) (T : MainTexts) (pid : Nat) (isAttached : Bool) : Py (Con DSt) (Option Nat) :=
  Py.bind (createProcessOut K fuel T pid isAttached) fun o =>
  match o with
  | some o => Py.bind (syscallTraceOut K fuel C F o) fun code => Py.pure (some code)
  | none => Py.pure none

/-- The `except` clauses of `_main` (`strace.py:260-273`). -/
def straceExceptOut (K : Kern) (C : StraceCfg) (F : LineView) (T : MainTexts) (e : Exc) : Py (Con DSt) (Option Nat) :=
  match e with
  | .event (.exit o signum exitcode) => Py.bind (processExitedOut K C F o signum exitcode) fun _ => Py.pure (some (exitcode.getD 0))
  | .ptrace errno => Py.bind (say ("ptrace() error: ".toList ++ T.text (.ptrace errno))) fun _ => Py.pure (some (errno.getD 0))
  | .diverge => Py.raise .diverge
  | .interrupt => Py.bind (say "Interrupted.".toList) fun _ => Py.pure (some 1)
  | e => Py.bind (sayAll (T.failure e)) fun _ => Py.pure (some 1)

/-- `SyscallTracer._main` (`strace.py:255-275`). -/
def straceMainOut (K : Kern) (fuel : Nat) (C : StraceCfg) (F : LineView) (T : MainTexts) (pid : Nat) (isAttached : Bool) : Py (Con DSt) (Option Nat) :=
  fun d =>
  let (r, t) := straceRunOut K fuel C F T pid isAttached d
  Py.bind (match r with
    | .ok code => Py.pure code
    | .error e => straceExceptOut K C F T e) (fun code =>
  Py.bind (inside (quit K fuel)) fun _ => Py.pure code) t

end PT
