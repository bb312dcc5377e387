import Verif.Model.Tools
import Verif.Model.Proc
import Verif.Model.Debugger
import Verif.Model.ArgText

/-
Model of `ptrace/error.py`, `getLogFunc` of `ptrace/logging_tools.py`, the options of `ptrace/debugger/application.py`, `ptrace/terminal.py`,
`ptrace/profiler.py` and `_set_cloexec_flag` of `ptrace/debugger/child.py`.

A log is a list of records with their level. What `format_exception` gives is a parameter, like the class and the text of an exception. The data of the
profiler are not modelled.
-/

namespace PT

/-- `WARNING`, `INFO` of the module `logging`. -/
def WARNING : Int := 30
def INFO : Int := 20

/-- `getLogFunc` (`logging_tools.py:5-18`), as the level at which the function logs. -/
def getLogFunc (level : Int) : Int :=
  if level = ERROR then ERROR
  else if level = WARNING then WARNING
  else if level = INFO then INFO
  else if level = DEBUG then DEBUG
  else ERROR

/-- A record of a logger. -/
structure Record where
  level : Int
  text : Str
  deriving DecidableEq, Repr

/-- `format_exception(*exc_info())` of Python 3 if no exception is handled. -/
def noException : List Str := ["NoneType: None\n".toList]

/-- `writeBacktrace` (`error.py:9-24`); `trace` is what `format_exception` returns, `none` if it raises. The index 0 of an empty list raises, too. -/
def writeBacktrace (space : Char → Bool) (trace : Option (List Str)) (level : Int) : List Record :=
  match trace with
  | some (first :: rest) =>
    if first ≠ "None\n".toList then
      (splitOn '\n' (rstrip space (first :: rest).flatten)).map fun line => ⟨getLogFunc level, rstrip space line⟩
    else [⟨getLogFunc level, "Unable to get backtrace".toList⟩]
  | _ => [⟨getLogFunc level, "Unable to get backtrace".toList⟩]

/-- The class of an exception. -/
inductive ErrClass where
  | systemExit
  | keyboardInterrupt
  | exception (name : Str)
  | derived (name : Str) (base : ErrClass)
  deriving DecidableEq, Repr

/-- `__name__` -/
def ErrClass.name : ErrClass → Str
  | .systemExit => "SystemExit".toList
  | .keyboardInterrupt => "KeyboardInterrupt".toList
  | .exception name => name
  | .derived name _ => name

/-- An exception: its class and `str(error)`. -/
structure PyError where
  cls : ErrClass
  text : Str
  deriving DecidableEq, Repr

/-- `formatError` (`error.py:27-32`). -/
def formatError (e : PyError) : Str := ['['] ++ e.cls.name ++ "] ".toList ++ e.text

/-- `writeError` (`error.py:35-52`). -/
def writeError (space : Char → Bool) (trace : Option (List Str)) (e : PyError) (title : Str) (level : Int) : Except PyError Unit × List Record :=
  if e.cls = .systemExit ∨ e.cls = .keyboardInterrupt then (.error e, [])
  else (.ok (), ⟨getLogFunc level, title ++ ": ".toList ++ formatError e⟩ :: writeBacktrace space trace (changeLogLevel level (-1)))

/-- The options about the log (`application.py:36-44`). -/
structure LogOptions where
  quiet : Bool
  verbose : Bool
  debug : Bool

/-- `Application._setupLog` (`application.py:18-30`): the level of the logger. -/
def setupLog (o : LogOptions) : Int :=
  if o.debug then DEBUG else if o.verbose then INFO else if o.quiet then ERROR else WARNING

/-- What a logger with a level passes on. -/
def logged (level : Int) (records : List Record) : List Record := records.filter fun r => decide (level ≤ r.level)

/-! ### The terminal -/

/-- The list of `tcgetattr`. -/
structure Termios where
  iflag : Nat
  oflag : Nat
  cflag : Nat
  lflag : Nat
  ispeed : Nat
  ospeed : Nat
  cc : List Byte
  deriving DecidableEq, Repr

/-- `termios.ECHO` -/
def ECHO : Nat := 8

/-- `enableEchoMode` (`terminal.py:28-41`): the result and the attributes afterwards. -/
def enableEchoMode (isatty : Bool) (t : Termios) : Bool × Termios :=
  if !isatty then (false, t)
  else if t.lflag &&& ECHO ≠ 0 then (false, t)
  else (true, { t with lflag := t.lflag ||| ECHO })

/-- `Gdb.restoreTerminal` (`gdb.py:786-788`). -/
def restoreTerminal (isatty : Bool) (t : Termios) : List Str × Termios :=
  let r := enableEchoMode isatty t
  (if r.1 then ["Terminal: restore echo mode".toList] else [], r.2)

/-- `_terminalSize` (`terminal.py:14-18`) from the first four bytes of `struct winsize`: width and height. -/
def terminalSize (a : Arch) (size : Bytes) : Int × Int := (readNativeInt a ((size.drop 2).take 2), readNativeInt a (size.take 2))

/-- `terminalWidth` (`terminal.py:21-25`). -/
def terminalWidth (a : Arch) (size : Bytes) : Int := (terminalSize a size).1

/-- `_set_cloexec_flag` (`child.py:31-38`): the flags of the descriptor afterwards. -/
def setCloexec (old : Nat) : Nat := old ||| 1

/-! ### Options of the applications -/

/-- `--fork`, `--trace-exec`, `--trace-clone` (`application.py:84-90`). -/
structure TraceOptions where
  fork : Bool
  exec : Bool
  clone : Bool

/-- `Application.setupDebugger` (`application.py:49-60`); `events` is `HAS_PTRACE_EVENTS`. An exit status if the program ends, and the lines. -/
def setupDebugger (events : Bool) (o : TraceOptions) (s : DSt) : Option Nat × List Str × DSt :=
  if o.fork ∧ ¬ events then (some 1, ["--fork option is not supported by your OS, sorry!".toList], s)
  else
    let s := if o.fork then (traceFork s).2 else s
    let s := if o.exec ∧ events then (traceExec s).2 else s
    let s := if o.clone ∧ events then (traceClone s).2 else s
    (none, [], s)

/-- `Application.processOptions` (`application.py:32-34`). -/
def processOptions (cwd : Str) (path : Option Str) (access : Str → Bool) : List Str → List Str
  | [] => []
  | program :: arguments => locateProgram cwd path access program :: arguments

/-- How a function that is profiled ends: with a value, or with an exception; `os` is `OSError`. -/
inductive Raised where
  | own (e : PyError)
  | os (errno : Nat)
  deriving DecidableEq, Repr

/-- `runProfiler` (`profiler.py:19-45`): the result, and whether `/tmp/profiler` exists afterwards. The file is removed in any case, which raises
`FileNotFoundError` if it was not written. -/
def runProfiler {α : Type} (func : Except PyError α) (fileThere : Bool) : Except Raised α × Bool :=
  match func with
  | .ok r => (.ok r, false)
  | .error e => if fileThere then (.error (.own e), false) else (.error (.os 2), false)

end PT
