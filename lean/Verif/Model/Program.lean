import Verif.Model.CmdLine
import Verif.Model.StraceMain
import Verif.Model.CallText
import Verif.Model.Log

/-
Model of strace.py as a whole: from its command line to its exit status.

Simplified: the file of `--output` can be opened; a process number, `--string-length` and `--array-count` are not negative (the theorems ask for that);
`--profiler` runs the same function (C103); `HAS_PTRACE_EVENTS` is true, as on Linux. What is printed before a tracer exists is not kept.
-/

namespace PT

/-- What strace.py finds when it is started: what it looks at while it reads its options, the regular expressions, the machine with its texts, and the
processes. -/
structure ProgramEnv where
  cmd : CmdEnv
  /-- `re.compile(regex).match(name)` -/
  regexMatch : Str → Str → Bool
  /-- the CPU and the memory; what the options set is not looked at -/
  host : CallHost
  /-- the stops of the processes, and the memory of one that has ended -/
  world : Nat → Snap
  gone : MemSt
  /-- the texts of signals and numbers -/
  base : LineView
  /-- the process that `createChild` makes for a program -/
  child : List Str → Nat
  /-- `str` of a list of words -/
  listText : List Str → Str
  vars : List Str
  text : Exc → Str
  failure : Exc → List Str

/-- An option with a number. -/
def numberHeld (v : OptVals) (name : String) : Nat := match dictGet v name.toList with
  | some (.int n) => n.toNat
  | _ => 0

/-- `self.syscall_options` and `self.options.enter` (`strace.py:233-240`, `strace.py:191-197`). -/
def hostBy (T : CallHost) (v : OptVals) : CallHost :=
  { T with
    env := { T.env with
      writeTypes := isOn v "type"
      writeArgname := isOn v "name"
      stringMax := numberHeld v "string_length"
      writeAddress := isOn v "address"
      maxArray := numberHeld v "array_count" }
    replace := !isOn v "raw_socketcall"
    enter := isOn v "enter" }

/-- `self.options.show_pid` and `syscall_options.instr_pointer = self.options.show_ip` (`strace.py:241`). -/
def baseBy (F : LineView) (v : OptVals) : LineView := { F with showPid := isOn v "show_pid", showIp := isOn v "show_ip" }

/-- `syscall.name` (`ptrace_syscall.py:56-80`) of the call that begins in this stop. -/
def nameAt (T : CallHost) (world : Nat → Snap) (regs : Nat) : Str := match T.begun (world regs) with
  | .ok (_, d) => d.name.toList
  | .error _ => []

/-- `self.ignore_regex` (`strace.py:122-131`). -/
def regexHeld (E : ProgramEnv) (v : OptVals) : Option (Str → Bool) := match textOf v "ignore_regex" with
  | some r => if r.isEmpty then none else some (E.regexMatch r)
  | none => none

/-- `self.only` (`strace.py:93-121`). -/
def onlyHeld (E : ProgramEnv) (v : OptVals) : List Str :=
  (onlyFilter E.cmd.tables E.cmd.space ⟨textOf v "syscalls", isOn v "filename", isOn v "socket"⟩).getD []

/-- What the loop is told by the options: `SyscallTracer.ignoreSyscall` (`strace.py:137-143`) and `--enter`. -/
def cfgBy (E : ProgramEnv) (v : OptVals) : StraceCfg :=
  ⟨⟨nameAt (hostBy E.host v) E.world, ignoreSyscall (onlyHeld E v) (regexHeld E v)⟩, isOn v "enter"⟩

/-- The texts around the loop. -/
def textsBy (E : ProgramEnv) (program : List Str) : MainTexts := ⟨program.headD [], E.listText program, E.vars, E.text, E.failure⟩

/-- How strace.py ends: before it traces anything, or with a tracer whose lines go to a file or to the standard error output. -/
inductive Ended where
  | early (status : Nat)
  | ran (file : Option Str) (result : Except Exc (Option Nat)) (state : Con DSt)

/-- `SyscallTracer()` and `main` (`strace.py:22-36`, `strace.py:226-275`). -/
def straceProgram (E : ProgramEnv) (K : Kern) (fuel : Nat) (args : List Str) : Ended :=
  match straceParse E.cmd args with
  | .exit code => .early code
  | .ok v program =>
    match setupDebugger true ⟨isOn v "fork", isOn v "trace_exec", isOn v "trace_clone"⟩ newDebugger with
    | (some code, _, _) => .early code
    | (none, lines, s) =>
      let F := (hostBy E.host v).view E.world E.gone (baseBy E.base v)
      let (r, t) := match tracedBy v program with
        | .attach n => straceMainOut K fuel (cfgBy E v) F (textsBy E program) n.toNat false ⟨s, lines⟩
        | .start p => straceMainOut K fuel (cfgBy E v) F (textsBy E program) (E.child p) true ⟨s, lines⟩
      .ran (logFile v) r t

/-- `sys.exit(exitcode)` (`strace.py:253`): `None` is 0. -/
def Ended.status : Ended → Option Nat
  | .early code => some code
  | .ran _ (.ok code) _ => some (code.getD 0)
  | .ran _ (.error _) _ => none

end PT
