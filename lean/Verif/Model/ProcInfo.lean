import Verif.Model.Proc

/-
Model of the parts of `ptrace/linux_proc.py` about sizes and times, of `timestampUNIX` (`ptrace/tools.py:87-104`), of `PtraceProcess.isTraced`
(`ptrace/debugger/process.py:179-183`) and of `dumpProcessInfo` (`ptrace/process_tools.py:21-103`) on Linux.

What is printed before an exception is kept: a part is the lines printed and the exception that ended it, if any. Seconds with decimals are exact
here; Python uses floating point numbers and rounds the result to microseconds.
-/

namespace PT

/-! ### Sizes, links, states -/

/-- `readProcessStatm` (`linux_proc.py:110-117`); `page` is `PAGE_SIZE`. -/
def readStatm (space : Char → Bool) (page : Nat) (f : FileReply) : Except PErr (List Int) :=
  match readFile f with
  | .error e => .error e
  | .ok t =>
    match (splitWs space t).mapM (pyInt space) with
    | none => .error .value
    | some pages => .ok (pages.map (· * (page : Int)))

/-- `readProcessLink` (`linux_proc.py:134-142`); `none` is an `OSError` of `readlink`. -/
def readLink : Option Str → Except PErr Str
  | some t => .ok t
  | none => .error .proc

/-- `PtraceProcess.isTraced` (`process.py:179-183`) with `HAS_PROC`. -/
def isTraced (space : Char → Bool) (stat : FileReply) : Except PErr Bool :=
  match readStat space stat with
  | .error e => .error e
  | .ok st => .ok (st.state = ['T'])

/-! ### Times -/

/-- Exceptions of these functions: `ProcError`, `ValueError`, `IndexError`, `OverflowError`. -/
inductive TErr where
  | proc | value | index | overflow
  deriving DecidableEq, Repr

/-- `readProc` (`linux_proc.py:34-40`, `openProc` `linux_proc.py:23-31`). -/
def readProc : FileReply → Except TErr Str
  | .missing => .error .proc
  | .undecodable => .error .value
  | .text t => .ok (newlines t)

/-- `float(t)` in microseconds, for digits with or without two decimals; other forms of numbers are not modelled. -/
def pyMicroseconds (t : Str) : Option Nat :=
  match split1 '.' t with
  | none => if t ≠ [] ∧ t.all isDec then some (natOfDec t * 1000000) else none
  | some (whole, part) =>
    if whole ≠ [] ∧ whole.all isDec ∧ part.length = 2 ∧ part.all isDec then some (natOfDec whole * 1000000 + natOfDec part * 10000) else none

/-- `getUptime` (`linux_proc.py:216-223`), in microseconds. -/
def getUptime (space : Char → Bool) (f : FileReply) : Except TErr Nat :=
  match readProc f with
  | .error e => .error e
  | .ok t =>
    match splitWs space (strip space t) with
    | [] => .error .index
    | w :: _ =>
      match pyMicroseconds w with
      | some n => .ok n
      | none => .error .value

/-- The years 1 to 9999, in seconds since 1970: other dates are an `OverflowError` of `datetime`. -/
def dateInRange (n : Int) : Bool := decide (-62135596800 ≤ n ∧ n ≤ 253402300799)

/-- `timestampUNIX` (`tools.py:87-104`) of a number of seconds, as seconds between 1970 and the date; `offset0` is `LOCAL_TIMEZONE_OFFSET`
(`tools.py:81-82`), the distance between local time and UTC at the beginning of 1970. -/
def timestampUNIX (offset0 value : Int) (isLocal : Bool) : Except TErr Int :=
  if !dateInRange value then .error .overflow
  else if isLocal then
    if dateInRange (value + offset0) then .ok (value + offset0) else .error .overflow
  else .ok value

/-- The loop of `getSystemBoot` (`linux_proc.py:232-238`). -/
def bootLoop (space : Char → Bool) (offset0 : Int) : List Str → Except TErr (Option Int)
  | [] => .ok none
  | line :: lines =>
    if "btime ".toList.isPrefixOf line then
      match pyInt space (line.drop 6) with
      | none => .error .value
      | some seconds =>
        match timestampUNIX offset0 seconds true with
        | .ok d => .ok (some d)
        | .error e => .error e
    else bootLoop space offset0 lines

/-- `getSystemBoot` (`linux_proc.py:226-242`); the second component is `getSystemBoot.value`. -/
def getSystemBoot (space : Char → Bool) (offset0 : Int) (f : FileReply) (cache : Option Int) : Except TErr Int × Option Int :=
  match cache with
  | some v => (.ok v, cache)
  | none =>
    match readProc f with
    | .error e => (.error e, none)
    | .ok t =>
      match bootLoop space offset0 (fileLines t) with
      | .error e => (.error e, none)
      | .ok none => (.error .proc, none)
      | .ok (some d) => (.ok d, some d)

/-! ### Information about a process -/

/-- Lines that are printed, and the exception that ended the code, if any. -/
abbrev Printing := List Str × Option PErr

/-- One piece of code after another. -/
def Printing.andThen (p q : Printing) : Printing :=
  match p.2 with
  | none => (p.1 ++ q.1, q.2)
  | some e => (p.1, some e)

/-- `try: log(...) except ProcError: pass` -/
def logOrSkip (m : Except PErr Str) : Printing :=
  match m with
  | .ok line => ([line], none)
  | .error .proc => ([], none)
  | .error e => ([], some e)

/-- `ProcessState.STATE_NAMES` (`linux_proc.py:71-78`). -/
def stateNames : List (Str × Str) :=
  [("R".toList, "running".toList), ("S".toList, "sleeping".toList), ("D".toList, "disk".toList), ("Z".toList, "zombie".toList),
   ("T".toList, "traced".toList), ("W".toList, "paging".toList)]

/-- The identifier and the state (`process_tools.py:31-47`). -/
def infoState (space : Char → Bool) (pid : Nat) (stat : FileReply) : Printing :=
  let text := "Process ID: ".toList ++ pyDec pid
  match readStat space stat with
  | .error .proc => ([text], none)
  | .error e => ([], some e)
  | .ok st =>
    ([text ++ " (parent: ".toList ++ pyDecInt st.ppid ++ [')'],
      "Process state: ".toList ++ (match stateNames.lookup st.state with
        | some name => st.state ++ " (".toList ++ name ++ [')']
        | none => st.state)], none)

/-- `repr` of a list of strings. -/
def reprList (repr : Str → Str) (l : List Str) : Str := '[' :: (", ".toList).intercalate (l.map repr) ++ [']']

/-- The command line (`process_tools.py:48-52`). -/
def infoCommand (repr : Str → Str) (cmdline : FileReply) : Printing :=
  logOrSkip (match readProcList cmdline with
    | .ok l => .ok ("Process command line: ".toList ++ reprList repr l)
    | .error e => .error e)

/-- The environment (`process_tools.py:53-74`); a limit of 0 or `None` is no limit. -/
def infoEnv (repr : Str → Str) (limit : Nat) (environ : FileReply) : Printing :=
  logOrSkip (match readProcList environ with
    | .error e => .error e
    | .ok env => if limit = 0 then .ok ("Process environment: ".toList ++ reprList repr env) else dumpEnv repr limit env)

/-- The working directory (`process_tools.py:75-79`). -/
def infoCwd (cwd : Option Str) : Printing :=
  logOrSkip (match readLink cwd with
    | .ok t => .ok ("Process working directory: ".toList ++ t)
    | .error e => .error e)

/-- `[int(id) for id in line[5:].split("\t")]` (`process_tools.py:87,89`). -/
def idField (space : Char → Bool) (line : Str) : Except PErr (List Int) :=
  match (splitOn '\t' (line.drop 5)).mapM (pyInt space) with
  | none => .error .value
  | some ids => .ok ids

/-- The loop over the lines of `status` (`process_tools.py:85-89`): `user` and `group`. -/
def statusLoop (space : Char → Bool) : List Str → Option (List Int) → Option (List Int) → Except PErr (Option (List Int) × Option (List Int))
  | [], user, group => .ok (user, group)
  | line :: lines, user, group =>
    if "Uid:".toList.isPrefixOf line then
      match idField space line with
      | .error e => .error e
      | .ok ids => statusLoop space lines (some ids) group
    else if "Gid:".toList.isPrefixOf line then
      match idField space line with
      | .error e => .error e
      | .ok ids => statusLoop space lines user (some ids)
    else statusLoop space lines user group

/-- The line about identifiers (`process_tools.py:91-100`). -/
def idLine (title : Str) (ids : Option (List Int)) : Printing :=
  match ids with
  | none => ([], none)
  | some (real :: effective :: _) =>
    ([title ++ " identifier: ".toList ++ pyDecInt real ++
      (if real ≠ effective then " (effective: ".toList ++ pyDecInt effective ++ [')'] else [])], none)
  | some [_] => ([], some .index)
  | some [] => ([], none)

/-- User and group (`process_tools.py:81-103`). -/
def infoIds (space : Char → Bool) (status : FileReply) : Printing :=
  match readFile status with
  | .error .proc => ([], none)
  | .error e => ([], some e)
  | .ok t =>
    match statusLoop space (fileLines t) none none with
    | .error e => ([], some e)
    | .ok (user, group) => (idLine "User".toList user).andThen (idLine "Group".toList group)

/-- The files that are read. -/
structure InfoFiles where
  stat : FileReply
  cmdline : FileReply
  environ : FileReply
  cwd : Option Str
  status : FileReply

/-- `dumpProcessInfo` (`process_tools.py:21-103`) on Linux. `Gdb.procInfo` (`gdb.py:517-518`) uses the limit 160. -/
def dumpProcessInfo (space : Char → Bool) (repr : Str → Str) (pid limit : Nat) (f : InfoFiles) : Printing :=
  (infoState space pid f.stat).andThen ((infoCommand repr f.cmdline).andThen ((infoEnv repr limit f.environ).andThen
    ((infoCwd f.cwd).andThen (infoIds space f.status))))

end PT
