import Verif.Spec.CmdLine
import Verif.Spec.Strace
import Verif.Spec.Follow
import Verif.Model.Program

/-
What a user of strace.py asks for: the settings on the command line, read as wishes about the trace.
-/

namespace PT.Spec
open PT

/-- The number that holds for a switch. -/
def wishedNumber (is : List (Str × Setting)) (name : String) : Nat := match settingOf is name.toList with
  | some (.number n) => n.toNat
  | _ => 0

/-- The numbers are no negative ones. -/
def Positive (is : List (Str × Setting)) : Prop :=
  ∀ name n, lastSetting is name = some (.number n) → 0 ≤ n

/-- How calls are to be written. -/
structure WishedText (T H : CallHost) (is : List (Str × Setting)) : Prop where
  types : H.env.writeTypes = isSet is "type"
  names : H.env.writeArgname = isSet is "name"
  address : H.env.writeAddress = isSet is "address"
  length : H.env.stringMax = wishedNumber is "string-length"
  count : H.env.maxArray = wishedNumber is "array-count"
  socket : H.replace = !isSet is "raw-socketcall"
  enter : H.enter = isSet is "enter"
  /-- the rest is as it is on the machine -/
  rest : ∃ types names address length count replace enter, H = { T with
    env := { T.env with writeTypes := types, writeArgname := names, writeAddress := address, stringMax := length, maxArray := count }
    replace := replace
    enter := enter }

/-- What stands before a call. -/
structure WishedFront (F G : LineView) (is : List (Str × Setting)) : Prop where
  pid : G.showPid = (isSet is "show-pid" || isSet is "fork")
  ip : G.showIp = isSet is "show-ip"
  rest : ∃ pid ip, G = { F with showPid := pid, showIp := ip }

/-- What is traced: a process that runs already, or a new one for a program. -/
inductive Tracee (E : ProgramEnv) (is : List (Str × Setting)) (prog : List Str) : Nat → Bool → Prop where
  | attach (n : Nat) (h : lastSetting is "pid".toList = some (.number n)) (hn : n ≠ 0) : Tracee E is prog n false
  | start (p : Str) (as : List Str) (h : lastSetting is "pid".toList = none) (hp : prog = p :: as) : Tracee E is prog (E.child (E.cmd.locate p :: as)) true

/-- The name of a call is asked for: by the filters if there are any, and not by the expression of calls to leave out. -/
def AskedFor (E : ProgramEnv) (is : List (Str × Setting)) (name : Str) : Prop :=
  let sel : Selection := ⟨givenText is "syscalls", isSet is "filename", isSet is "socket"⟩
  ((∀ n, ¬Selected E.cmd.tables E.cmd.space sel n) ∨ Selected E.cmd.tables E.cmd.space sel name) ∧
    ∀ r, givenText is "ignore-regex" = some r → r ≠ [] → E.regexMatch r name = false

/-- The lines are to go to this file. -/
def WishedFile (is : List (Str × Setting)) (file : Option Str) : Prop :=
  (∀ f, givenText is "output" = some f → f ≠ [] → file = some f) ∧ (givenText is "output" = none → file = none)

end PT.Spec
