import Verif.Model.Gdb
import Verif.Model.Disasm
import Verif.Model.Expr
import Verif.Model.Proc
import Verif.Model.Repr
import Verif.Model.Search

/-
Model of the commands of `gdb.py` that show or edit something: which method a command reaches (`gdb.py:298-365`), `print`, `where`, `set`,
`proclist`, `breakpoints`, `signals`, `follow` and `xray`.

Lines that are printed are kept in the state; the texts of error messages are not modelled: a method that returns an error message is `false`.
-/

namespace PT

/-! ### Dispatch -/

/-- What `Gdb.execute` does for a command (`gdb.py:300-358`). -/
inductive Handler where
  | cont | procInfo | procList | attachProcess | dumpRegs | dumpStack | gcore | backtrace | whereTrue | whereOriginal | dumpMaps | debuggerInfo
  | stepOver | stepInto | syscallTrace | help | set | until | switch | breakpoint | displayBreakpoints | displaySignals | delete | hexdump
  | signal | print | addFollowTerm | showFollowTerms | resetFollowTerms | xray
  deriving DecidableEq, Repr

/-- `Gdb.execute` (`gdb.py:298-360`): the method and the text handed over to it; `none`: unknown command. `set` gets the whole command and
drops the first four characters itself (`gdb.py:529`). -/
def dispatch (c : Str) : Option (Handler × Str) :=
  if c = "cont".toList then some (.cont, [])
  else if c = "proc".toList then some (.procInfo, [])
  else if c = "proclist".toList then some (.procList, [])
  else if "attach ".toList.isPrefixOf c then some (.attachProcess, c.drop 7)
  else if c = "regs".toList then some (.dumpRegs, [])
  else if c = "stack".toList then some (.dumpStack, [])
  else if c = "gcore".toList then some (.gcore, [])
  else if c = "backtrace".toList then some (.backtrace, [])
  else if c = "where".toList ∨ "where ".toList.isPrefixOf c then some (.whereTrue, c.drop 6)
  else if c = "where2".toList ∨ "where2 ".toList.isPrefixOf c then some (.whereOriginal, c.drop 7)
  else if c = "maps".toList then some (.dumpMaps, [])
  else if c = "dbginfo".toList then some (.debuggerInfo, [])
  else if c = "step".toList then some (.stepOver, [])
  else if c = "stepi".toList then some (.stepInto, [])
  else if c = "sys".toList then some (.syscallTrace, [])
  else if c = "help".toList then some (.help, [])
  else if "set ".toList.isPrefixOf c then some (.set, c.drop 4)
  else if "until ".toList.isPrefixOf c then some (.until, c.drop 6)
  else if "switch".toList.isPrefixOf c ∨ c = "switch".toList then some (.switch, c.drop 6)
  else if "break ".toList.isPrefixOf c then some (.breakpoint, c.drop 6)
  else if "breakpoints".toList.isPrefixOf c then some (.displayBreakpoints, [])
  else if "signals".toList.isPrefixOf c then some (.displaySignals, [])
  else if "delete ".toList.isPrefixOf c then some (.delete, c.drop 7)
  else if "hexdump ".toList.isPrefixOf c then some (.hexdump, c.drop 8)
  else if "signal ".toList.isPrefixOf c then some (.signal, c.drop 7)
  else if "print ".toList.isPrefixOf c then some (.print, c.drop 6)
  else if "follow ".toList.isPrefixOf c then some (.addFollowTerm, c.drop 7)
  else if c = "showfollow".toList then some (.showFollowTerms, [])
  else if c = "resetfollow".toList then some (.resetFollowTerms, [])
  else if c = "xray".toList then some (.xray, [])
  else none

/-- `COMMANDS` (`gdb.py:50-93`): the names that `help` lists. -/
def helpNames : List String := [
  "cont", "step", "stepi", "until", "set", "sys", "signal", "signals", "regs", "where", "print", "hexdump", "gcore", "where2", "stack",
  "backtrace", "proc", "maps", "break", "breakpoints", "delete", "attach", "proclist", "switch", "follow", "showfollow", "resetfollow", "xray",
  "dbginfo", "quit", "help"]

/-! ### Printing -/

/-- Some state and the lines printed so far. -/
structure Con (σ : Type) where
  inner : σ
  out : List Str

/-- Run code that prints nothing. -/
def inside {σ α : Type} (m : Py σ α) : Py (Con σ) α := fun c => ((m c.inner).1, { c with inner := (m c.inner).2 })

/-- `error(text)`, `print(text)` -/
def say {σ : Type} (text : Str) : Py (Con σ) Unit := fun c => (.ok (), { c with out := c.out ++ [text] })

/-- Print lines. -/
def sayAll {σ : Type} : List Str → Py (Con σ) Unit
  | [] => Py.pure ()
  | t :: ts => Py.bind (say t) fun _ => sayAll ts

/-- `try: value = m except ValueError as err: return str(err)`, then the rest of the method. -/
def valueOr {τ α : Type} (m : Py τ α) (f : α → Py τ Bool) : Py τ Bool := fun s =>
  match m s with
  | (.ok a, t) => f a t
  | (.error .value, t) => (.ok false, t)
  | (.error e, t) => (.error e, t)

/-- `MemoryMapping.__contains__` (`memory_mapping.py:57-58`). -/
def Mapping.holds (m : Mapping) (address : Nat) : Bool := decide (m.start ≤ address ∧ address < m.stop)

/-- `MemoryMapping.__str__` (`memory_mapping.py:60-65`). -/
def mappingText (a : Arch) (m : Mapping) : Str :=
  formatAddress a m.start ++ '-' :: formatAddress a m.stop ++
  (match m.pathname with
    | some p => if p.isEmpty then [] else " => ".toList ++ p
    | none => []) ++ " (".toList ++ m.permissions ++ [')']

/-- `Gdb.print_` (`gdb.py:396-407`). -/
def gdbPrint {σ : Type} (a : Arch) (parse : Str → Py σ Nat) (maps : Py σ (List Mapping)) (command : Str) : Py (Con σ) Bool :=
  valueOr (inside (parse command)) fun value =>
  Py.bind (say ("Decimal: ".toList ++ pyDec value)) fun _ =>
  Py.bind (say ("Hexadecimal: ".toList ++ formatWordHex a value)) fun _ =>
  Py.bind (inside maps) fun ms =>
  Py.bind (sayAll ((ms.filter fun m => m.holds value).map fun m => "Address is part of mapping: ".toList ++ mappingText a m)) fun _ =>
  Py.pure true

/-- `Gdb.parseIntegers` (`gdb.py:254-260`). -/
def parseIntegers {σ : Type} (space : Char → Bool) (parse : Str → Py σ Nat) (text : Str) : Py σ (List Nat) :=
  let rec go : List Str → Py σ (List Nat)
    | [] => Py.pure []
    | item :: items => Py.bind (parse (strip space item)) fun v => Py.bind (go items) fun vs => Py.pure (v :: vs)
  go (splitWs space text)

/-- `Gdb.where` (`gdb.py:503-515`); `dump` is `process.dumpCode`. -/
def gdbWhere {σ : Type} (space : Char → Bool) (parse : Str → Py σ Nat) (dump : Option Nat → Option Nat → Bool → Py σ Unit) (command : Str)
    (manageBp : Bool) : Py σ Bool :=
  valueOr (parseIntegers space parse command) fun values =>
  Py.bind (dump values[0]? values[1]? manageBp) fun _ => Py.pure true

/-- `Gdb.set` (`gdb.py:527-545`) after the four characters `set `. An exception that carries no error number stands for `ProcessError`. -/
def gdbSet {σ : Type} (ps : PyStr) (parse : Str → Py σ Nat) (setreg : Str → Nat → Py σ Unit) (text : Str) : Py (Con σ) Bool :=
  match split1 '=' text with
  | none => Py.pure false
  | some (key, value) =>
    match ps.lower (strip ps.space key) with
    | '$' :: key =>
      valueOr (inside (parse value)) fun value => fun c =>
      match inside (setreg key value) c with
      | (.ok _, d) => Py.bind (say ("Set $".toList ++ key ++ " to ".toList ++ pyDec value)) (fun _ => Py.pure true) d
      | (.error (.ptrace none), d) => (.ok false, d)
      | (.error e, d) => (.error e, d)
    | _ => Py.pure false

/-- `PtraceProcess.__str__` (`process.py:767-771`). -/
def processText (pid : Nat) : Str := "<PtraceProcess #".toList ++ pyDec pid ++ ['>']

/-- `Gdb.procList` (`gdb.py:520-525`). -/
def gdbProcList (g : GSt) : List Str :=
  (iterate g.dbg).map fun o => processText (g.dbg.heap o).pid ++ (if g.process = o then " (active)".toList else [])

/-- `Breakpoint.__str__` (`breakpoint.py:57-60`). -/
def breakpointText (a : Arch) (b : BpObj) : Str :=
  "<Breakpoint ".toList ++ formatAddress a b.address ++ "..".toList ++ formatAddress a (b.address + b.size - 1) ++ ['>']

/-- `Gdb.displayBreakpoints` (`gdb.py:673-680`): for every process its number and its breakpoints. -/
def gdbBreakpoints (a : Arch) (processes : List (Nat × BpSt)) : List Str :=
  let lines := processes.flatMap fun p => (p.2.dict.filterMap fun e => p.2.objs[e.2]?).map fun b => processText p.1 ++ ':' :: breakpointText a b
  if lines.isEmpty then ["(no breakpoint)".toList] else lines

/-- Insertion into a list sorted by number (`list.sort` is stable). -/
def insertByKey (x : Nat × Str) : List (Nat × Str) → List (Nat × Str)
  | [] => [x]
  | y :: ys => if x.1 < y.1 then x :: y :: ys else y :: insertByKey x ys

/-- `signals.sort(key=...)` -/
def sortByKey (l : List (Nat × Str)) : List (Nat × Str) := l.foldl (fun acc x => insertByKey x acc) []

/-- `Gdb.displaySignals` (`gdb.py:682-686`). -/
def gdbSignalLines (signames : List (Nat × Str)) : List Str :=
  (sortByKey signames).map fun x => List.replicate (2 - (pyDec x.1).length) ' ' ++ pyDec x.1 ++ ": ".toList ++ x.2

/-! ### Terms -/

/-- State of the search for terms: the terms, and the memory of every process. -/
structure XSt where
  terms : List Bytes
  mems : Nat → MemSt

/-- `Gdb.parseBytes` and `Gdb.addFollowTerm` (`gdb.py:262-275`); `evalBytes` is `eval` of a text, `none` for a value that is not of type
`bytes` (`TypeError`). -/
def gdbFollow (space : Char → Bool) (evalBytes : Str → Except Exc (Option Bytes)) (text : Str) : Py (Con XSt) Bool := fun c =>
  match evalBytes ('b' :: text.dropWhile space) with
  | .ok (some value) => (.ok true, { c with inner := { c.inner with terms := c.inner.terms ++ [value] } })
  | .ok none => (.error .type, c)
  | .error e => (.error e, c)

/-- What the processes are: their memory, as the kernel shows it, and their mappings. -/
structure XEnv where
  arch : Arch
  space : Char → Bool
  /-- `self.debugger`, as process numbers -/
  pids : List Nat
  kernel : Nat → Kernel
  /-- `/proc/<pid>/maps` -/
  maps : Nat → FileReply

/-- `readProcessMappings(process)` (`memory_mapping.py:103-139`): errors are `ProcessError`. -/
def mappingsOf (x : XEnv) (pid : Nat) : Py (Con XSt) (List Mapping) :=
  match readMappings x.space (x.maps pid) with
  | .ok ms => Py.pure ms
  | .error _ => Py.raise (.ptrace none)

/-- A read of the memory of a process. -/
def readOf (x : XEnv) (pid address size : Nat) : Py (Con XSt) Bytes := fun c =>
  let r := readBytes (x.kernel pid) address size (c.inner.mems pid)
  (r.1, { c with inner := { c.inner with mems := fun p => if p = pid then r.2 else c.inner.mems p } })

/-- `for address in procmap.search(term): f(address)`: the loop of the generator (`memory_mapping.py:81-100`, compare `searchLoop`), `f` being
run at every `yield`. -/
def searchDo (x : XEnv) (pid : Nat) (pat : Bytes) (buf_len : Nat) (f : Nat → Py (Con XSt) Unit) : Nat → Nat → Nat → Py (Con XSt) Unit
  | 0, _, _ => Py.raise .diverge
  | fuel + 1, covered, remaining =>
    if remaining < pat.length then Py.pure ()
    else
      let requested := if remaining > buf_len then buf_len else remaining
      Py.bind (readOf x pid covered requested) fun data =>
      match pyFind data pat with
      | none =>
        let skip := requested - pat.length + 1
        searchDo x pid pat buf_len f fuel (covered + skip) (remaining - skip)
      | some offset =>
        let skip := offset + pat.length
        Py.bind (f (covered + offset)) fun _ => searchDo x pid pat buf_len f fuel (covered + skip) (remaining - skip)

/-- One mapping. -/
def searchMap (x : XEnv) (fuel pid : Nat) (pat : Bytes) (m : Mapping) (f : Nat → Py (Con XSt) Unit) : Py (Con XSt) Unit :=
  searchDo x pid pat (searchBufLen pat) f fuel m.start (m.stop - m.start)

/-- `for x in l: f(x)` -/
def forEach {τ α : Type} (l : List α) (f : α → Py τ Unit) : Py τ Unit :=
  match l with
  | [] => Py.pure ()
  | a :: l => Py.bind (f a) fun _ => forEach l f

/-- The addresses a search of one mapping yields, in order, collected as `join` does. -/
def collectDo (x : XEnv) (pid : Nat) (pat : Bytes) (buf_len : Nat) : Nat → Nat → Nat → Py (Con XSt) (List Nat)
  | 0, _, _ => Py.raise .diverge
  | fuel + 1, covered, remaining =>
    if remaining < pat.length then Py.pure []
    else
      let requested := if remaining > buf_len then buf_len else remaining
      Py.bind (readOf x pid covered requested) fun data =>
      match pyFind data pat with
      | none =>
        let skip := requested - pat.length + 1
        collectDo x pid pat buf_len fuel (covered + skip) (remaining - skip)
      | some offset =>
        let skip := offset + pat.length
        Py.bind (collectDo x pid pat buf_len fuel (covered + skip) (remaining - skip)) fun rest => Py.pure ((covered + offset) :: rest)

/-- `getPointers` (`gdb.py:117-122`), collected. -/
def collectMaps (x : XEnv) (fuel pid : Nat) (pat : Bytes) : List Mapping → Py (Con XSt) (List Nat)
  | [] => Py.pure []
  | m :: ms =>
    Py.bind (collectDo x pid pat (searchBufLen pat) fuel m.start (m.stop - m.start)) fun l =>
    Py.bind (collectMaps x fuel pid pat ms) fun rest => Py.pure (l ++ rest)

/-- `getPointers(process, address)` (`gdb.py:117-122`). -/
def getPointers (x : XEnv) (fuel pid address : Nat) : Py (Con XSt) (List Nat) :=
  Py.bind (liftE (word2bytes x.arch address)) fun pat =>
  Py.bind (mappingsOf x pid) fun ms => collectMaps x fuel pid pat ms

/-- The line about an occurrence (`gdb.py:293-296`). -/
def xrayLine (a : Arch) (term : Bytes) (pid : Nat) (m : Mapping) (address : Nat) (pointers : List Nat) : Str :=
  "term[".toList ++ reprBytes term ++ "] pid[".toList ++ pyDec pid ++ "] ".toList ++ mappingText a m ++ ' ' :: formatAddress a address ++
    " pointers: ".toList ++ [' '].intercalate (pointers.map (formatAddress a))

/-- `Gdb.xray` and `Gdb._xray` (`gdb.py:280-296`). -/
def gdbXray (x : XEnv) (fuel : Nat) : Py (Con XSt) Unit := fun c =>
  forEach c.inner.terms (fun term =>
    forEach x.pids fun pid =>
      Py.bind (mappingsOf x pid) fun ms =>
      forEach ms fun m =>
        searchMap x fuel pid term m fun address =>
          Py.bind (getPointers x fuel pid address) fun pointers => say (xrayLine x.arch term pid m address pointers)) c

end PT
