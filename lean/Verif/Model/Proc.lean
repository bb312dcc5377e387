import Verif.Model.Expr

/-
Model of `ptrace/linux_proc.py`, of `readProcessMappings` (`ptrace/debugger/memory_mapping.py:103-139`) and of the
environment part of `dumpProcessInfo` (`ptrace/process_tools.py:52-74`).

Files are opened in text mode: the kernel's bytes are decoded (a failure is `UnicodeDecodeError`, a
`ValueError`), and `\r` and `\r\n` are translated to `\n` (universal newlines). The set of white space
characters and `repr` of a string are parameters.
-/

namespace PT

/-- Exceptions of these modules: `ProcError`, `ProcessError`, `ValueError` (`UnicodeDecodeError` is one),
`IndexError`, `TypeError`. -/
inductive PErr where
  | proc | process | value | index | type
  deriving DecidableEq, Repr

/-- What reading a file of `/proc` gives: `IOError`, bytes that cannot be decoded, or (decoded) text. -/
inductive FileReply where
  | missing
  | undecodable
  | text (t : Str)
  deriving DecidableEq, Repr

/-- Universal newlines of `open()` in text mode. -/
def newlines : Str → Str
  | '\r' :: '\n' :: t => '\n' :: newlines t
  | '\r' :: t => '\n' :: newlines t
  | c :: t => c :: newlines t
  | [] => []

/-- `open(filename).read()`; `IOError` becomes `ProcError` (`linux_proc.py:43-53`). -/
def readFile : FileReply → Except PErr Str
  | .missing => .error .proc
  | .undecodable => .error .value
  | .text t => .ok (newlines t)

/-- Value of decimal digits, as in `int(t)`. -/
def natOfDec (t : Str) : Nat := t.foldl (fun acc c => 10 * acc + (c.toNat - 48)) 0

/-- `int(t)` without sign and white space: groups of digits separated by single underscores. Decimal digits
other than ASCII are outside the model. -/
def pyNat (t : Str) : Option Nat :=
  let groups := splitOn '_' t
  if groups.all (fun g => decide (g ≠ []) && g.all isDec) then some (natOfDec groups.flatten) else none

/-- Python's `int(t)`; `none` is `ValueError`. -/
def pyInt (space : Char → Bool) (t : Str) : Option Int :=
  match strip space t with
  | '-' :: r => (pyNat r).map fun (n : Nat) => -(n : Int)
  | '+' :: r => (pyNat r).map fun (n : Nat) => (n : Int)
  | r => (pyNat r).map fun (n : Nat) => (n : Int)

/-- Pieces of a text between the characters for which `p` holds. -/
def splitOnP (p : Char → Bool) : Str → List Str
  | [] => [[]]
  | c :: cs =>
    if p c then [] :: splitOnP p cs
    else match splitOnP p cs with
      | [] => [[c]]
      | w :: ws => (c :: w) :: ws

/-- `t.split()`: runs of characters that are not white space. -/
def splitWs (space : Char → Bool) (t : Str) : List Str := (splitOnP space t).filter (· ≠ [])

/-- `t.split(sep, 1)` when there are two parts. -/
def split1 (sep : Char) (t : Str) : Option (Str × Str) :=
  match t.dropWhile (· ≠ sep) with
  | [] => none
  | _ :: after => some (t.takeWhile (· ≠ sep), after)

/-- `t.rsplit(sep, 1)` when there are two parts. -/
def rsplit1 (sep : Char) (t : Str) : Option (Str × Str) :=
  (split1 sep t.reverse).map fun (a, b) => (b.reverse, a.reverse)

/-- A `ProcessState` (`linux_proc.py:56-99`). -/
structure ProcState where
  pid : Int
  program : Str
  state : Str
  ppid : Int
  pgrp : Int
  session : Int
  tty_nr : Int
  tpgid : Int
  utime : Int
  stime : Int
  starttime : Int
  deriving DecidableEq, Repr

/-- `ProcessState.__init__` (`linux_proc.py:80-99`). -/
def parseStat (space : Char → Bool) (stat : Str) : Except PErr ProcState :=
  match rsplit1 ')' stat with
  | none => .error .value
  | some (part, stat) =>
    match split1 '(' part with
    | none => .error .value
    | some (pid, program) =>
      match pyInt space pid with
      | none => .error .value
      | some pid =>
        match splitWs space stat with
        | [] => .error .index
        | state :: items =>
          match items.mapM (pyInt space) with
          | none => .error .value
          | some nums =>
            match nums[0]?, nums[1]?, nums[2]?, nums[3]?, nums[4]?, nums[10]?, nums[11]?, nums[18]? with
            | some a, some b, some c, some d, some e, some f, some g, some h =>
              .ok { pid := pid, program := program, state := state, ppid := a, pgrp := b, session := c, tty_nr := d,
                    tpgid := e, utime := f, stime := g, starttime := h }
            | _, _, _, _, _, _, _, _ => .error .index

/-- `readProcessStat` (`linux_proc.py:102-107`) on the content of the file. -/
def readStat (space : Char → Bool) (f : FileReply) : Except PErr ProcState :=
  match readFile f with
  | .error e => .error e
  | .ok t => parseStat space t

/-- `readProcessProcList` (`linux_proc.py:120-131`) on the content of the file. -/
def readProcList (f : FileReply) : Except PErr (List Str) :=
  match readFile f with
  | .error e => .error e
  | .ok data =>
    if data = [] then .ok []
    else
      let parts := splitOn '\x00' data
      if parts.getLast? = some [] then .ok parts.dropLast else .ok parts

/-- The files of the processes at one moment: `cmdline` and `stat`. -/
structure ProcFs where
  listing : List Str
  cmdline : Int → FileReply
  stat : Int → FileReply

/-- `readProcesses` (`linux_proc.py:145-157`). -/
def readProcesses (space : Char → Bool) (fs : ProcFs) : List Int := fs.listing.filterMap (pyInt space)

/-- `readProcessCmdline` (`linux_proc.py:160-181`); `none` is Python's `None`. -/
def readCmdline (space : Char → Bool) (fs : ProcFs) (pid : Int) (escape : Bool) : Except PErr (Option (List Str)) :=
  let fallback := match readStat space (fs.stat pid) with
    | .ok st => .ok (some [if escape then '[' :: st.program ++ [']'] else st.program])
    | .error .proc => .ok none
    | .error e => .error e
  match readProcList (fs.cmdline pid) with
  | .ok (c :: cs) => .ok (some (c :: cs))
  | .ok [] => fallback
  | .error .proc => fallback
  | .error e => .error e

/-- `searchProcessesByName` (`linux_proc.py:184-202`): the pids yielded, and the exception that ended the generator
if there was one. -/
def searchNames (space : Char → Bool) (fs : ProcFs) (name : Str) : List Int → List Int × Option PErr
  | [] => ([], none)
  | pid :: pids =>
    match readCmdline space fs pid true with
    | .error e => ([], some e)
    | .ok none => searchNames space fs name pids
    | .ok (some []) => searchNames space fs name pids
    | .ok (some (program :: _)) =>
      let rest := searchNames space fs name pids
      if program = name ∨ ('/' :: name).isSuffixOf program = true then (pid :: rest.1, rest.2) else rest

/-- `searchProcessesByName` over the listing of `/proc`. -/
def searchProcessesByName (space : Char → Bool) (fs : ProcFs) (name : Str) : List Int × Option PErr :=
  searchNames space fs name (readProcesses space fs)

/-- `searchProcessByName` (`linux_proc.py:205-213`): the generator is left at the first pid. -/
def searchProcessByName (space : Char → Bool) (fs : ProcFs) (name : Str) : Except PErr Int :=
  match searchProcessesByName space fs name with
  | (pid :: _, _) => .ok pid
  | ([], some e) => .error e
  | ([], none) => .error .proc

/-! ### Memory mappings -/

/-- The fields of a `MemoryMapping` (`memory_mapping.py:25-56`). -/
structure Mapping where
  start : Nat
  stop : Nat
  permissions : Str
  offset : Nat
  major : Nat
  minor : Nat
  inode : Nat
  pathname : Option Str
  deriving DecidableEq, Repr

/-- `[0-9a-f]+` followed by the character `sep`: the digits and the text after `sep`. Because `sep` is no
hexadecimal digit, the regular expression has to take all digits. -/
def takeHex (sep : Char) (t : Str) : Option (Str × Str) :=
  match t.takeWhile isHex, t.dropWhile isHex with
  | [], _ => none
  | ds, c :: rest => if c = sep then some (ds, rest) else none
  | _, [] => none

/-- `PROC_MAP_REGEX.match` (`memory_mapping.py:10-22`) and the conversions of `readProcessMappings`
(`memory_mapping.py:126-135`). -/
def parseMapLine (t : Str) : Option Mapping :=
  match takeHex '-' t with
  | none => none
  | some (start, t) =>
  match takeHex ' ' t with
  | none => none
  | some (stop, t) =>
  match t with
  | p1 :: p2 :: p3 :: p4 :: ' ' :: t =>
    if '\n' ∈ [p1, p2, p3, p4] then none
    else
    match takeHex ' ' t with
    | none => none
    | some (offset, t) =>
    match takeHex ':' t with
    | none => none
    | some (major, t) =>
    match takeHex ' ' t with
    | none => none
    | some (minor, t) =>
    if (major.length ≠ 2 ∧ major.length ≠ 3) ∨ (minor.length ≠ 2 ∧ minor.length ≠ 3) then none
    else
    let inode := t.takeWhile isDec
    if inode = [] then none
    else
    some { start := intOfHex start, stop := intOfHex stop, permissions := [p1, p2, p3, p4], offset := intOfHex offset,
           major := intOfHex major, minor := intOfHex minor, inode := natOfDec inode,
           pathname := match t.dropWhile isDec with
             | ' ' :: rest => some ((rest.dropWhile (· = ' ')).takeWhile (· ≠ '\n'))
             | _ => none }
  | _ => none

/-- `line.rstrip()` -/
def rstrip (space : Char → Bool) (t : Str) : Str := (t.reverse.dropWhile space).reverse

/-- The lines of a text file, without the final newlines: `for line in mapsfile`. -/
def fileLines (t : Str) : List Str :=
  let parts := splitOn '\n' t
  if parts.getLast? = some [] then parts.dropLast else parts

/-- The loop of `readProcessMappings` (`memory_mapping.py:120-136`); `none` from the regular expression raises
`ProcessError`. -/
def parseMaps (space : Char → Bool) (lines : List Str) : Except PErr (List Mapping) :=
  match lines.mapM fun line => parseMapLine (rstrip space line) with
  | none => .error .process
  | some maps => .ok maps

/-- `readProcessMappings` (`memory_mapping.py:103-139`) on the content of the file; a file that cannot be opened
is a `ProcessError`. -/
def readMappings (space : Char → Bool) (f : FileReply) : Except PErr (List Mapping) :=
  match readFile f with
  | .error .proc => .error .process
  | .error e => .error e
  | .ok t => parseMaps space (fileLines t)

/-! ### Environment -/

/-- The truncation loop (`process_tools.py:56-66`): kept variables and number of removed ones. -/
def truncateEnv (maxLength : Nat) : Nat → List Str → List Str × Nat
  | _, [] => ([], 0)
  | length, var :: env =>
    if maxLength < length + var.length then
      let r := truncateEnv maxLength length env
      (r.1, r.2 + 1)
    else
      let r := truncateEnv maxLength (length + var.length) env
      (var :: r.1, r.2)

/-- `"%s=%r" % tuple(item.split("=", 1))` (`process_tools.py:67`); a variable without `=` raises `TypeError`. -/
def envText (repr : Str → Str) (item : Str) : Except PErr Str :=
  match split1 '=' item with
  | none => .error .type
  | some (name, value) => .ok (name ++ '=' :: repr value)

/-- The environment line of `dumpProcessInfo` with a limit (`process_tools.py:53-71`), `maxLength > 0`. -/
def dumpEnv (repr : Str → Str) (maxLength : Nat) (env : List Str) : Except PErr Str :=
  let r := truncateEnv maxLength 0 env
  match r.1.mapM (envText repr) with
  | .error e => .error e
  | .ok texts =>
    .ok ("Process environment: ".toList ++ (", ".toList).intercalate texts ++
      if r.2 ≠ 0 then ", ... (skip ".toList ++ pyDec r.2 ++ " vars)".toList else [])

end PT
