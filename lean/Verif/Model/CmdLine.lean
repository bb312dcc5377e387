import Verif.Model.Log
import Verif.Model.Tools
import Verif.Model.Strace
import Verif.Model.Dict

/-
Model of the command lines of `strace.py` and `gdb.py`: the tables of options (`strace.py:36-76`, `gdb.py:153-158`,
`ptrace/debugger/application.py:36-44` and `81-93`), what is done with them (`strace.py:79-135`, `gdb.py:160-165`, `application.py:32-34`
and `62-68`), and of the class `OptionParser` of Python's library `optparse` as far as these programs use it (not repository code; read in Python 3.12,
`optparse.py:406-433` and `1407-1539`, `1652-1674`). Simplified: the texts of messages are left out, an exit is its status; the loop of `optparse`
that takes a value from the next argument is written with a state (`want`).
-/

namespace PT

/-- What an option does: `action="store_true"`, `type="int"`, `type="str"`, or `--help`, which `optparse` adds by itself. -/
inductive OptKind where
  | flag
  | int
  | str
  | help
  deriving DecidableEq, Repr

/-- One `add_option`. All options of the programs have one long form. -/
structure OptDef where
  long : Str
  short : Option Char
  kind : OptKind
  deriving DecidableEq, Repr

/-- `option.dest`: the long form without the dashes in front, other dashes become `_` (`optparse.py:684-686`). -/
def OptDef.dest (o : OptDef) : Str := (o.long.drop 2).map fun c => if c = '-' then '_' else c

/-- A value in `self.options`. -/
inductive OptVal where
  | none
  | flag (b : Bool)
  | int (n : Int)
  | str (s : Str)
  deriving DecidableEq, Repr

/-- `self.options`, with the names of its attributes. -/
abbrev OptVals := List (Str × OptVal)

/-! ### Numbers -/

/-- The value of a letter or digit in `int(text, radix)`. -/
def digitVal (c : Char) : Option Nat :=
  if '0' ≤ c ∧ c ≤ '9' then some (c.toNat - '0'.toNat)
  else if 'a' ≤ c ∧ c ≤ 'z' then some (c.toNat - 'a'.toNat + 10)
  else if 'A' ≤ c ∧ c ≤ 'Z' then some (c.toNat - 'A'.toNat + 10)
  else none

/-- Digits with single underscores between them; `gap` tells that no digit came just before. -/
def digitsVal (radix : Nat) : Bool → Nat → Str → Option Nat
  | gap, acc, [] => if gap then none else some acc
  | gap, acc, c :: t =>
    if c = '_' then (if gap then none else digitsVal radix true acc t)
    else match digitVal c with
      | some d => if d < radix then digitsVal radix false (acc * radix + d) t else none
      | none => none

/-- The digits after a prefix like `0x`, which the radix allows; one underscore may follow the prefix. -/
def afterPrefix (radix : Nat) (s : Str) : Str :=
  let letters := if radix = 16 then ['x', 'X'] else if radix = 8 then ['o', 'O'] else if radix = 2 then ['b', 'B'] else []
  match s with
  | '0' :: c :: t =>
    if letters.contains c then (match t with
      | '_' :: u => u
      | _ => t)
    else s
  | _ => s

/-- `int(text, radix)` of Python for ASCII digits; `none` is `ValueError`. -/
def intOf (space : Char → Bool) (radix : Nat) (text : Str) : Option Int :=
  match strip space text with
  | '-' :: t => (digitsVal radix true 0 (afterPrefix radix t)).map fun n => -(n : Int)
  | '+' :: t => (digitsVal radix true 0 (afterPrefix radix t)).map fun n => (n : Int)
  | t => (digitsVal radix true 0 (afterPrefix radix t)).map fun n => (n : Int)

/-- `_parse_num` (`optparse.py:406-417`). -/
def parseNum (space : Char → Bool) (val : Str) : Option Int :=
  if val.take 2 = ['0', 'x'] ∨ val.take 2 = ['0', 'X'] then intOf space 16 val
  else if val.take 2 = ['0', 'b'] ∨ val.take 2 = ['0', 'B'] then intOf space 2 (if val.drop 2 = [] then ['0'] else val.drop 2)
  else if val.take 1 = ['0'] then intOf space 8 val
  else intOf space 10 val

/-! ### `OptionParser` -/

/-- Where one argument leads to: the values are set, the next argument is the value of an option, the help is printed, or an error is. -/
inductive OptStep where
  | set (v : OptVals)
  | want (o : OptDef) (v : OptVals)
  | help
  | bad
  deriving DecidableEq, Repr

/-- `Option.process` for a value (`optparse.py:761-793`, `427-433`); `none` is an error. -/
def storeValue (space : Char → Bool) (o : OptDef) (value : Str) (v : OptVals) : Option OptVals :=
  match o.kind with
  | .int => (parseNum space value).map fun n => dictSet v o.dest (.int n)
  | _ => some (dictSet v o.dest (.str value))

/-- `_match_abbrev` (`optparse.py:1652-1674`). -/
def matchAbbrev (opts : List OptDef) (s : Str) : Option OptDef :=
  match opts.find? fun o => o.long = s with
  | some o => some o
  | none => match opts.filter fun o => s.isPrefixOf o.long with
    | [o] => some o
    | _ => none

/-- `_process_long_opt` (`optparse.py:1467-1501`). -/
def longOpt (space : Char → Bool) (opts : List OptDef) (arg : Str) (v : OptVals) : OptStep :=
  match matchAbbrev opts (arg.takeWhile (· ≠ '=')) with
  | none => .bad
  | some o =>
    let given := arg.contains '='
    match o.kind with
    | .help => if given then .bad else .help
    | .flag => if given then .bad else .set (dictSet v o.dest (.flag true))
    | _ => if given then (match storeValue space o ((arg.dropWhile (· ≠ '=')).drop 1) v with
        | some v => .set v
        | none => .bad)
      else .want o v

/-- `_process_short_opts` (`optparse.py:1503-1539`), the letters of the argument. -/
def shortOpts (space : Char → Bool) (opts : List OptDef) : Str → OptVals → OptStep
  | [], v => .set v
  | c :: t, v =>
    match opts.find? fun o => o.short = some c with
    | none => .bad
    | some o => match o.kind with
      | .help => .help
      | .flag => shortOpts space opts t (dictSet v o.dest (.flag true))
      | _ => if t = [] then .want o v else (match storeValue space o t v with
          | some v => .set v
          | none => .bad)

/-- The end of `parse_args`: an exit, or the values and the other arguments. -/
inductive Parsed where
  | exit (code : Nat)
  | ok (v : OptVals) (args : List Str)
  deriving DecidableEq, Repr

/-- `_process_args` (`optparse.py:1407-1436`); `want` is an option that takes the next argument as its value, `largs` are the arguments put aside. An
error exits with 2, `--help` with 0. -/
def processArgs (space : Char → Bool) (opts : List OptDef) : Option OptDef → OptVals → List Str → List Str → Parsed
  | some _, _, _, [] => .exit 2
  | none, v, largs, [] => .ok v largs
  | some o, v, largs, a :: t => match storeValue space o a v with
    | some v => processArgs space opts none v largs t
    | none => .exit 2
  | none, v, largs, a :: t =>
    if a = ['-', '-'] then .ok v (largs ++ t)
    else if a.take 2 = ['-', '-'] then (match longOpt space opts a v with
      | .set v => processArgs space opts none v largs t
      | .want o v => processArgs space opts (some o) v largs t
      | .help => .exit 0
      | .bad => .exit 2)
    else if a.take 1 = ['-'] ∧ 1 < a.length then (match shortOpts space opts (a.drop 1) v with
      | .set v => processArgs space opts none v largs t
      | .want o v => processArgs space opts (some o) v largs t
      | .help => .exit 0
      | .bad => .exit 2)
    else processArgs space opts none v (largs ++ [a]) t

/-! ### The programs -/

def flagOpt (long : String) (short : Option Char := none) : OptDef := ⟨long.toList, short, .flag⟩

/-- `createCommonOptions` (`application.py:81-93`), after `--help`. -/
def commonOptions : List OptDef :=
  [⟨"--help".toList, some 'h', .help⟩, ⟨"--pid".toList, some 'p', .int⟩, flagOpt "--fork" (some 'f'), flagOpt "--trace-exec", flagOpt "--trace-clone",
   flagOpt "--no-stdout"]

/-- `createLogOptions` (`application.py:36-44`). -/
def logOptions : List OptDef := [flagOpt "--quiet" (some 'q'), flagOpt "--verbose" (some 'v'), flagOpt "--debug"]

/-- The options of strace.py (`strace.py:39-76`). -/
def straceOptions : List OptDef := commonOptions ++
  [flagOpt "--enter", flagOpt "--profiler", flagOpt "--type", flagOpt "--name", ⟨"--string-length".toList, some 's', .int⟩,
   ⟨"--array-count".toList, none, .int⟩, flagOpt "--raw-socketcall", ⟨"--output".toList, some 'o', .str⟩, ⟨"--ignore-regex".toList, none, .str⟩,
   flagOpt "--address", ⟨"--syscalls".toList, some 'e', .str⟩, flagOpt "--socket", flagOpt "--filename", flagOpt "--show-pid", flagOpt "--list-syscalls",
   flagOpt "--show-ip" (some 'i')] ++ logOptions

/-- The options of gdb.py (`gdb.py:153-157`). -/
def gdbOptions : List OptDef := commonOptions ++ logOptions

/-- The default of an option; `default=300` and `default=20` (`strace.py:48-51`). -/
def OptDef.default (o : OptDef) : OptVal :=
  if o.long = "--string-length".toList then .int 300
  else if o.long = "--array-count".toList then .int 20
  else match o.kind with
    | .flag => .flag false
    | _ => .none

/-- `get_default_values`: the help has no value. -/
def defaults (opts : List OptDef) : OptVals := (opts.filter fun o => o.kind != .help).map fun o => (o.dest, o.default)

/-- `parser.parse_args()` -/
def parseArgs (space : Char → Bool) (opts : List OptDef) (args : List Str) : Parsed := processArgs space opts none (defaults opts) [] args

/-- `if self.options.name:` for a flag. -/
def isOn (v : OptVals) (name : String) : Bool := dictGet v name.toList == some (.flag true)

/-- An option with a text; `none` if it is not given. -/
def textOf (v : OptVals) (name : String) : Option Str := match dictGet v name.toList with
  | some (.str s) => some s
  | _ => none

/-- `processOptions` (`application.py:32-34`); `locate` is `locateProgram`. -/
def locateFirst (locate : Str → Str) : List Str → List Str
  | [] => []
  | p :: args => locate p :: args

/-- The world strace.py looks at while it reads its options. -/
structure CmdEnv where
  space : Char → Bool
  tables : SysTables
  /-- does `re.compile` accept this? -/
  regexOk : Str → Bool
  /-- `locateProgram` -/
  locate : Str → Str

/-- `SyscallTracer.parseOptions` (`strace.py:36-135`): an exit, or `self.options` and `self.program`. -/
def straceParse (E : CmdEnv) (args : List Str) : Parsed :=
  match parseArgs E.space straceOptions args with
  | .exit code => .exit code
  | .ok v program =>
    if isOn v "list_syscalls" then .exit 0
    else if dictGet v "pid".toList = some .none ∧ program = [] then .exit 1
    else if (onlyFilter E.tables E.space ⟨textOf v "syscalls", isOn v "filename", isOn v "socket"⟩).isNone then .exit 1
    else if (textOf v "ignore_regex").any fun r => !r.isEmpty && !E.regexOk r then .exit 1
    else .ok (if isOn v "fork" then dictSet v "show_pid".toList (.flag true) else v) (locateFirst E.locate program)

/-- `Gdb.parseOptions` (`gdb.py:153-165`). -/
def gdbParse (E : CmdEnv) (args : List Str) : Parsed :=
  match parseArgs E.space gdbOptions args with
  | .exit code => .exit code
  | .ok v program =>
    if dictGet v "pid".toList = some .none ∧ program = [] then .exit 1
    else .ok v (locateFirst E.locate program)

/-- What is traced. -/
inductive Traced where
  | attach (pid : Int)
  | start (program : List Str)
  deriving DecidableEq, Repr

/-- `Application.createProcess` (`application.py:62-68`): `if self.options.pid` is false for 0. -/
def tracedBy (v : OptVals) (program : List Str) : Traced :=
  match dictGet v "pid".toList with
  | some (.int n) => if n ≠ 0 then .attach n else .start program
  | _ => .start program

/-- `SyscallTracer.setupLog` (`strace.py:29-36`): the file that gets all lines, or `none` for the standard error output. -/
def logFile (v : OptVals) : Option Str := match textOf v "output" with
  | some f => if f.isEmpty then none else some f
  | none => none

end PT
