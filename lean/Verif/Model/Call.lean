import Verif.Model.Ctypes
import Verif.Model.Regs
import Verif.Model.Tables
import Verif.Model.Text

/-
Model of `ptrace/syscall/ptrace_syscall.py`, `ptrace/syscall/names.py`, the end of `ptrace/syscall/prototypes.py` and `setupSocketCall` of
`ptrace/syscall/socketcall.py`. The texts of arguments are created by an arbitrary function of what the tracee contains at that moment
(`createText` with its error handling in `FunctionArgument.getText`, `ptrace/func_arg.py:30-45`).
-/

namespace PT

/-- What depends on the CPU: `SYSCALL_NAMES` (`names.py:4-19`; `none` where the import raises `NotImplementedError`),
`SOCKET_SYSCALL_NAMES`, `SYSCALL_REGISTER` (`ptrace_syscall.py:13-30`), `RETURN_VALUE_REGISTER` (32-45), the registers of
`readArgumentValues` (92-109), and `user_regs_struct`. -/
structure CallCpu where
  names : Option (List (Nat × String))
  sockets : List String
  number : String
  result : String
  arguments : List String
  regs : RegTable

def cpuX86_64 : CallCpu where
  names := some Tables.x86_64
  sockets := Tables.x86_64Socket
  number := "orig_rax"
  result := "rax"
  arguments := ["rdi", "rsi", "rdx", "r10", "r8", "r9"]
  regs := regsX86_64

def cpuI386 : CallCpu where
  names := some Tables.i386
  sockets := Tables.i386Socket
  number := "orig_eax"
  result := "eax"
  arguments := ["ebx", "ecx", "edx", "esi", "edi", "ebp"]
  regs := regsI386

def cpuPowerpc32 : CallCpu where
  names := some Tables.powerpc32
  sockets := Tables.powerpc32Socket
  number := "gpr0"
  result := "result"
  arguments := ["gpr3", "gpr4", "gpr5", "gpr6", "gpr7", "gpr8"]
  regs := regsPowerpc false

def cpuPowerpc64 : CallCpu where
  names := some Tables.powerpc64
  sockets := Tables.powerpc64Socket
  number := "gpr0"
  result := "result"
  arguments := ["gpr3", "gpr4", "gpr5", "gpr6", "gpr7", "gpr8"]
  regs := regsPowerpc true

def cpuArm32 : CallCpu where
  names := none
  sockets := []
  number := "r7"
  result := "r0"
  arguments := ["r0", "r1", "r2", "r3", "r4", "r5", "r6"]
  regs := regsArm32

def cpuAarch64 : CallCpu where
  names := some Tables.aarch64
  sockets := Tables.aarch64Socket
  number := "r8"
  result := "r0"
  arguments := ["r0", "r1", "r2", "r3", "r4", "r5", "r6", "r7"]
  regs := regsAarch64

def cpuRiscv32 : CallCpu where
  names := some Tables.riscv32
  sockets := Tables.riscv32Socket
  number := "a7"
  result := "a0"
  arguments := ["a0", "a1", "a2", "a3", "a4", "a5", "a6"]
  regs := regsRiscv 32

def cpuRiscv64 : CallCpu where
  names := some Tables.riscv64
  sockets := Tables.riscv64Socket
  number := "a7"
  result := "a0"
  arguments := ["a0", "a1", "a2", "a3", "a4", "a5", "a6"]
  regs := regsRiscv 64

/-- The CPUs with a table of system calls. -/
def callCpus : List CallCpu := [cpuX86_64, cpuI386, cpuPowerpc32, cpuPowerpc64, cpuAarch64, cpuRiscv32, cpuRiscv64]

/-- `SYSCALL_PROTOTYPES` after the loop over `ALIASES` (`prototypes.py:1769-1772`): name, type of the result, (type, name) of the arguments.
An assignment puts its key in front. -/
def prototypes : List (String × String × List (String × String)) :=
  Tables.aliases.foldl (fun d entry =>
    match d.lookup entry.1 with
    | some proto => entry.2.foldl (fun d copy => (copy, proto) :: d) d
    | none => d) Tables.basePrototypes

/-- `PREFORMAT_ARGUMENTS` (`ptrace_syscall.py:47-51`). -/
def preformatArguments : List (String × List Nat) := [("select", [1, 2, 3]), ("execve", [0, 1, 2]), ("clone", [0, 1])]

/-- `SyscallArgument` (`ptrace/func_arg.py:20-28`). -/
structure SysArg where
  value : Nat
  type : Option String := none
  name : Option String := none
  text : Option Str := none
  deriving DecidableEq, Repr

/-- `PtraceSyscall` (`ptrace_syscall.py:56-65`). -/
structure SysCall where
  name : String
  restype : String := "long"
  arguments : List SysArg := []
  deriving DecidableEq, Repr

/-- `readSyscall` (`ptrace_syscall.py:85-90`). -/
def readSyscall (cpu : CallCpu) (regs : String → Nat) : String :=
  match (cpu.names.getD []).lookup (regs cpu.number) with
  | some name => name
  | none => "syscall<" ++ toString (regs cpu.number) ++ ">"

/-- `readArgumentValues` (`ptrace_syscall.py:92-109`). -/
def readArgumentValues (cpu : CallCpu) (regs : String → Nat) : List Nat := cpu.arguments.map regs

/-- `readArguments` (`ptrace_syscall.py:111-119`). -/
def readArguments (protos : List (String × String × List (String × String))) (c : SysCall) (values : List Nat) : SysCall :=
  match protos.lookup c.name with
  | some (restype, formats) =>
    { c with restype := restype,
             arguments := c.arguments ++ (values.zip formats).map fun p => { value := p.1, type := some p.2.1, name := some p.2.2 } }
  | none => { c with arguments := c.arguments ++ values.map fun v => { value := v } }

/-- The words read by `setupSocketCall`, one per declared argument (`socketcall.py:54-57`). -/
def socketArguments {σ : Type} (W : Nat) (readWord : Nat → Py σ Nat) : List (String × String) → Nat → Py σ (List SysArg)
  | [], _ => Py.pure []
  | format :: formats, address =>
    Py.bind (readWord address) fun value =>
    Py.bind (socketArguments W readWord formats (address + W)) fun rest =>
    Py.pure ({ value := value, type := some format.1, name := some format.2 } :: rest)

/-- The text of the first argument of `socketcall` (`syscall_argument.py:98-103`). -/
def socketcallText (value : Nat) : String :=
  match Tables.socketcall.lookup value with
  | some name => name
  | none => toString value

/-- `setupSocketCall` (`socketcall.py:44-58`): a name without prototype raises `KeyError`. -/
def setupSocketCall {σ : Type} (W : Nat) (readWord : Nat → Py σ Nat) (call address : Nat) : Py σ SysCall :=
  match prototypes.lookup (socketcallText call) with
  | none => Py.raise .key
  | some (restype, formats) =>
    Py.bind (socketArguments W readWord formats address) fun arguments =>
    Py.pure { name := socketcallText call, restype := restype, arguments := arguments }

/-- `getText` (`func_arg.py:30-45`): an empty text is created again. -/
def SysArg.getText (create : SysArg → Str) (a : SysArg) : SysArg :=
  match a.text with
  | some (c :: cs) => { a with text := some (c :: cs) }
  | _ => { a with text := some (create a) }

/-- Arguments of some calls are formatted before the call (`ptrace_syscall.py:76-80`); a missing one raises `IndexError`. -/
def preformat {σ : Type} (create : String → SysArg → Str) (c : SysCall) : Py σ SysCall :=
  match preformatArguments.lookup c.name with
  | some indexes =>
    if indexes.any (fun i => decide (c.arguments.length ≤ i)) then Py.raise .index
    else Py.pure { c with arguments := c.arguments.mapIdx fun i a => if i ∈ indexes then a.getText (create c.name) else a }
  | none => Py.pure c

/-- `enter` up to the arguments (`ptrace_syscall.py:67-74`). -/
def argsRead {σ : Type} (cpu : CallCpu) (W : Nat) (replace : Bool) (readWord : Nat → Py σ Nat) (regs : String → Nat) : Py σ SysCall :=
  let c := readArguments prototypes { name := readSyscall cpu regs } (readArgumentValues cpu regs)
  if c.name = "socketcall" ∧ replace then
    match c.arguments with
    | a :: b :: _ => setupSocketCall W readWord a.value b.value
    | _ => Py.raise .index
  else Py.pure c

/-- `enter` (`ptrace_syscall.py:67-80`). -/
def argsEnter {σ : Type} (cpu : CallCpu) (W : Nat) (replace : Bool) (readWord : Nat → Py σ Nat) (create : String → SysArg → Str)
    (regs : String → Nat) : Py σ SysCall :=
  Py.bind (argsRead cpu W replace readWord regs) fun c => preformat create c

/-- `type.endswith("*")` -/
def isPointer (type : String) : Bool := type.toList.getLast? == some '*'

/-- The arguments after `exit` (`ptrace_syscall.py:121-135`): texts are forgotten, except those formatted before the call and those of
arguments with a type that is no pointer. -/
def argsExit (c : SysCall) : SysCall :=
  let indexes := (preformatArguments.lookup c.name).getD []
  { c with arguments := c.arguments.mapIdx fun i a =>
      if i ∈ indexes then a
      else match a.type with
        | some t => if t ≠ "" ∧ isPointer t = false then a else { a with text := none }
        | none => { a with text := none } }

/-- The texts made by `format` (`func_call.py:63-64`), and the call afterwards. -/
def argsFormat (create : String → SysArg → Str) (c : SysCall) : SysCall :=
  { c with arguments := c.arguments.map fun a => a.getText (create c.name) }

end PT
