import Verif.Model.Dict
import Verif.Model.Text

/-
Model of the signal name table: `ptrace/signames.py`, `ptrace/tools.py:145-155` and
`gdb.py:48,367-379`.
The contents of the `signal` module depend on the platform: `dir` lists its attributes with their
integer value, in the order of `dir(signal)`.
-/

namespace PT

/-- `name.startswith("SIG")` -/
def startsSIG (name : Str) : Bool := "SIG".toList.isPrefixOf name

/-- `PREFERRED_NAMES` (`ptrace/signames.py:9`). -/
def preferredNames : List Str :=
  ["SIGABRT".toList, "SIGHUP".toList, "SIGCHLD".toList, "SIGPOLL".toList]

/-- `allnames[signum].append(name)` or `allnames[signum] = [name]` (`ptrace/signames.py:24-27`). -/
def addName (allnames : List (Nat × List Str)) (name : Str) (signum : Nat) : List (Nat × List Str) :=
  match dictGet allnames signum with
  | some names => dictSet allnames signum (names ++ [name])
  | none => dictSet allnames signum [name]

/-- First loop of `getSignalNames` (`ptrace/signames.py:19-27`). -/
def allNames : List (Str × Nat) → List (Nat × List Str) → List (Nat × List Str)
  | [], acc => acc
  | (name, signum) :: dir, acc =>
    if startsSIG name then allNames dir (addName acc name signum) else allNames dir acc

/-- Name chosen for one signal (`ptrace/signames.py:33-39`); `names[0]` of an empty list never
happens and is modelled by the empty text. -/
def pickName (names : List Str) : Str :=
  match preferredNames.find? (fun p => names.contains p) with
  | some p => p
  | none => names.headD []

/-- Second loop of `getSignalNames` (`ptrace/signames.py:28-41`). -/
def pickNames : List (Nat × List Str) → List (Nat × Str) → List (Nat × Str)
  | [], acc => acc
  | (signum, names) :: rest, acc =>
    if signum = 0 then pickNames rest acc else pickNames rest (dictSet acc signum (pickName names))

/-- `getSignalNames()` (`ptrace/signames.py:12-41`). -/
def getSignalNames (dir : List (Str × Nat)) : List (Nat × Str) := pickNames (allNames dir []) []

/-- `signalName` (`ptrace/signames.py:47-60`). -/
def signalName (signames : List (Nat × Str)) (signum : Nat) : Str :=
  match dictGet signames signum with
  | some name => name
  | none => "signal<".toList ++ pyDec signum ++ ">".toList

/-- `inverseDict` (`ptrace/tools.py:145-155`). -/
def inverseDict {κ β : Type} [DecidableEq β] : List (κ × β) → List (β × κ) → List (β × κ)
  | [], result => result
  | (key, value) :: data, result => inverseDict data (dictSet result value key)

/-- `SIGNALS = inverseDict(SIGNAMES)` (`gdb.py:48`). -/
def gdbSignals (signames : List (Nat × Str)) : List (Str × Nat) := inverseDict signames []

/-- `Gdb.parseSignum` (`gdb.py:367-379`); `parseInteger` is the method of `gdb.py:212-252`. -/
def parseSignum (signals : List (Str × Nat)) (parseInteger : Str → Except Exc Int) (command : Str) :
    Except Exc Int :=
  match dictGet signals command with
  | some n => .ok n
  | none =>
    match dictGet signals ("SIG".toList ++ command) with
    | some n => .ok n
    | none =>
      match parseInteger command with
      | .ok v => .ok v
      | .error .value => .error .value
      | .error e => .error e

/-- `dir(signal)` restricted to the names starting with `SIG`, on Linux (CPython `signal` module). -/
def linuxSignalDir : List (Str × Nat) :=
  [("SIGABRT".toList, 6), ("SIGALRM".toList, 14), ("SIGBUS".toList, 7), ("SIGCHLD".toList, 17),
   ("SIGCLD".toList, 17), ("SIGCONT".toList, 18), ("SIGFPE".toList, 8), ("SIGHUP".toList, 1),
   ("SIGILL".toList, 4), ("SIGINT".toList, 2), ("SIGIO".toList, 29), ("SIGIOT".toList, 6),
   ("SIGKILL".toList, 9), ("SIGPIPE".toList, 13), ("SIGPOLL".toList, 29), ("SIGPROF".toList, 27),
   ("SIGPWR".toList, 30), ("SIGQUIT".toList, 3), ("SIGRTMAX".toList, 64), ("SIGRTMIN".toList, 34),
   ("SIGSEGV".toList, 11), ("SIGSTKFLT".toList, 16), ("SIGSTOP".toList, 19), ("SIGSYS".toList, 31),
   ("SIGTERM".toList, 15), ("SIGTRAP".toList, 5), ("SIGTSTP".toList, 20), ("SIGTTIN".toList, 21),
   ("SIGTTOU".toList, 22), ("SIGURG".toList, 23), ("SIGUSR1".toList, 10), ("SIGUSR2".toList, 12),
   ("SIGVTALRM".toList, 26), ("SIGWINCH".toList, 28), ("SIGXCPU".toList, 24), ("SIGXFSZ".toList, 25),
   ("SIG_BLOCK".toList, 0), ("SIG_DFL".toList, 0), ("SIG_IGN".toList, 1), ("SIG_SETMASK".toList, 2),
   ("SIG_UNBLOCK".toList, 1)]

/-- `SIGNAMES` on Linux. -/
def linuxSignames : List (Nat × Str) := getSignalNames linuxSignalDir

end PT
