import Verif.Model.Breakpoint
import Verif.Model.Fault

/-
Model of the disassembler wrapper `/repo/ptrace/disasm.py`, of the code dump of
`/repo/ptrace/debugger/process.py:192-283` and of the commands of `/repo/gdb.py` that work on breakpoints and
registers: `where`, `where2`, `break`, `delete`, `set`, the breakpoint handling of `cont`, and `step`.

Not modelled: the instruction decoder itself (distorm3), which is a parameter; parsing the arguments of the
commands (`Model/Expr`); the text of log lines (lines are values of `DumpLine`).
-/

namespace PT

/-- `Instruction` (`disasm.py:34-56`); `code` are the bytes shown as `hexa`. -/
structure Instr where
  address : Nat
  size : Nat
  text : Str
  code : Bytes
  deriving DecidableEq, Repr

/-- The decoder behind `Decode` (`disasm.py:8-30`). `one address code` is the first instruction of `code`:
its size and text. `maxSize` is MAX_INSTR_SIZE (11 on x86_64, 8 on i386). `bytesHex`: `pydistorm` on
Python 3, where `str(instr.instructionHex)` raises TypeError because `_WString.__str__` returns bytes
(`pydistorm.py:56-58`). -/
structure Disassembler where
  one : Nat → Bytes → Option (Nat × Str)
  maxSize : Nat
  bytesHex : Bool

/-- `Decode(address, code, bits)`: instruction after instruction until the code is used up. An instruction
is never empty and never longer than the code left (others end the list). -/
def decodeAll (one : Nat → Bytes → Option (Nat × Str)) : Nat → Nat → Bytes → List Instr
  | 0, _, _ => []
  | fuel + 1, address, code =>
    match one address code with
    | none => []
    | some (n, text) =>
      if n = 0 ∨ code.length < n then []
      else ⟨address, n, text, code.take n⟩ :: decodeAll one fuel (address + n) (code.drop n)

/-- `disassemble` (`disasm.py:58-64`): all instructions; the first `Instruction(...)` raises when the
hexadecimal text cannot be built. -/
def disassembleCode (E : Disassembler) (code : Bytes) (address : Nat) : Except Exc (List Instr) :=
  let l := decodeAll E.one code.length address code
  if E.bytesHex && !l.isEmpty then .error .type else .ok l

/-- `disassembleOne` (`disasm.py:66-73`). -/
def disassembleFirst (E : Disassembler) (code : Bytes) (address : Nat) : Except Exc Instr :=
  match disassembleCode E code address with
  | .error e => .error e
  | .ok [] => .error (.ptrace none)
  | .ok (i :: _) => .ok i

/-- Size of the code `PtraceProcess.disassemble` reads (`process.py:262-269`). -/
def disasmSize (E : Disassembler) (start : Nat) (stop nb : Option Nat) : Nat :=
  match stop with
  | some stop => max start stop - start + 1
  | none => nb.getD 10 * E.maxSize

/-- Number of instructions `PtraceProcess.disassemble` yields at most (`process.py:266-268,274-275`):
0 is no limit. -/
def disasmLimit (stop nb : Option Nat) : Nat :=
  match stop with
  | some _ => nb.getD 0
  | none => nb.getD 10

/-- `PtraceProcess.disassemble` (`process.py:257-275`) from a known start address; the generator is run to
its end. -/
def procDisassemble (E : Disassembler) (h : BpHost) (start : Nat) (stop nb : Option Nat) : Py BpSt (List Instr) :=
  Py.bind (onMem (readBytes h.kernel start (disasmSize E start stop nb))) fun code =>
  Py.bind (liftE (disassembleCode E code start)) fun l =>
  let lim := disasmLimit stop nb
  Py.pure (if lim = 0 then l else l.take lim)

/-- `PtraceProcess.disassembleOne` (`process.py:277-283`) at a known address. -/
def procDisassembleOne (E : Disassembler) (h : BpHost) (address : Nat) : Py BpSt Instr :=
  Py.bind (onMem (readBytes h.kernel address E.maxSize)) fun code => liftE (disassembleFirst E code address)

/-! ### the code dump -/

/-- A line of the code dump (`process.py:192-255`). -/
inductive DumpLine where
  | header
  | bytes (code : Bytes)
  | instr (i : Instr) (here bp : Bool)
  | noPointer
  | unable (start : Nat)
  deriving DecidableEq, Repr

/-- The process and the lines logged so far. -/
structure DumpSt where
  p : BpSt
  out : List DumpLine := []

/-- Run an operation of the process. -/
def onProc {α : Type} (f : Py BpSt α) : Py DumpSt α := fun s =>
  let (r, p') := f s.p
  (r, { s with p := p' })

/-- `log(...)` -/
def logLine (l : DumpLine) : Py DumpSt Unit := fun s => (.ok (), { s with out := s.out ++ [l] })

/-- One instruction of the dump that looks through breakpoints (`process.py:233-239`): the instruction and
whether it is a breakpoint. -/
def dumpInstr (E : Disassembler) (h : BpHost) (address : Nat) : Py BpSt (Instr × Bool) := fun s =>
  match (dictGet s.dict address).bind (fun id => s.objs[id]?) with
  | some b => Py.bind (liftE (disassembleFirst E b.oldBytes address)) (fun i => Py.pure (i, true)) s
  | none => Py.bind (procDisassembleOne E h address) (fun i => Py.pure (i, false)) s

/-- The loop of `_dumpCode` with `manage_bp` (`process.py:229-248`), `n` lines left. -/
def dumpLoop (E : Disassembler) (h : BpHost) (stop ip : Option Nat) : Nat → Nat → Py DumpSt Unit
  | 0, _ => Py.pure ()
  | n + 1, address =>
    Py.bind (onProc (dumpInstr E h address)) fun r =>
    Py.bind (logLine (.instr r.1 (decide (some r.1.address = ip)) r.2)) fun _ =>
    let address := address + r.1.size
    match stop with
    | some stop => if stop ≤ address then Py.pure () else dumpLoop E h (some stop) ip n address
    | none => dumpLoop E h none ip n address

/-- The loop of `_dumpCode` without `manage_bp` (`process.py:250-255`). -/
def dumpAll (ip : Option Nat) : List Instr → Py DumpSt Unit
  | [] => Py.pure ()
  | i :: l => Py.bind (logLine (.instr i (decide (some i.address = ip)) false)) fun _ => dumpAll ip l

/-- The bounds put on `stop` (`process.py:212-214`), MAX_CODE_SIZE = 1024. -/
def dumpStop (start : Nat) (stop : Option Nat) : Option Nat :=
  stop.map fun stop => min (max start stop) (start + 1024 - 1)

/-- `PtraceProcess._dumpCode` (`process.py:211-255`), MIN_CODE_SIZE = 32; `E` is none when
HAS_DISASSEMBLER is false. -/
def dumpCodeAt (E : Option Disassembler) (h : BpHost) (start : Nat) (stop ip : Option Nat) (manageBp : Bool) :
    Py DumpSt Unit :=
  let stop := dumpStop start stop
  match E with
  | none =>
    let size := match stop with
      | some stop => stop - start + 1
      | none => 32
    Py.bind (onProc (onMem (readBytes h.kernel start size))) fun code => logLine (.bytes code)
  | some E =>
    Py.bind (logLine .header) fun _ =>
    if manageBp then dumpLoop E h stop ip 10 start
    else Py.bind (onProc (procDisassemble E h start stop none)) fun l => dumpAll ip l

/-- `PtraceProcess.dumpCode` (`process.py:192-209`). -/
def dumpCode (E : Option Disassembler) (h : BpHost) (start stop : Option Nat) (manageBp : Bool) : Py DumpSt Unit :=
  Py.bind (exceptPtrace (Py.bind (onProc (onRegs (getInstrPointer h.table h.regKernel))) fun ip => Py.pure (some ip))
    (Py.pure none)) fun ip =>
  match (match start with
    | some start => some start
    | none => ip) with
  | none => logLine .noPointer
  | some start =>
    exceptPtrace (dumpCodeAt E h start stop ip manageBp) (logLine (.unable start))

/-! ### commands of gdb.py on breakpoints -/

/-- `Gdb.readInstrSize` (`gdb.py:688-698`) with the default size None. -/
def readInstrSize (E : Option Disassembler) (h : BpHost) (address : Nat) : Py BpSt (Option Nat) :=
  match E with
  | none => Py.pure none
  | some E =>
    exceptPtrace (Py.bind (procDisassembleOne E h address) fun i => Py.pure (some i.size)) (Py.pure none)

/-- `Gdb.breakpoint` (`gdb.py:700-714`) on a parsed address; `true`: a breakpoint was set, `false`: an error
message is returned. -/
def gdbBreak (E : Option Disassembler) (h : BpHost) (address : Nat) : Py BpSt Bool :=
  Py.bind (readInstrSize E h address) fun size =>
  exceptPtrace (Py.bind (createBreakpoint h address size) fun _ => Py.pure true) (Py.pure false)

/-- `Gdb.delete` (`gdb.py:716-727`) on a parsed address. -/
def gdbDelete (h : BpHost) (address : Nat) : Py BpSt Bool := fun s =>
  match findBreakpoint s address with
  | none => (.ok false, s)
  | some id => Py.bind (desinstall h id false) (fun _ => Py.pure true) s

/-- What `Gdb.cont` does after SIGTRAP (`gdb.py:193-202`); `true`: a breakpoint was hit. The address before
address 0 belongs to no breakpoint. -/
def gdbTrap (h : BpHost) : Py BpSt Bool :=
  Py.bind (onRegs (getInstrPointer h.table h.regKernel)) fun ip => fun s =>
  match (if h.powerpc then some ip else if ip = 0 then none else some (ip - 1)) with
  | none => (.ok false, s)
  | some ip =>
    match findBreakpoint s ip with
    | none => (.ok false, s)
    | some id => Py.bind (desinstall h id true) (fun _ => Py.pure true) s

/-- The same with several processes: the breakpoint is looked up in the current process `cur` (`self.process`),
whichever process `sig` the signal came from (`gdb.py:189-199`). -/
def gdbTrapOf (h : BpHost) (cur _sig : Nat) : Py (Nat → BpSt) Bool := fun ps =>
  let (r, p') := gdbTrap h (ps cur)
  (r, fun i => if i = cur then p' else ps i)

/-- Where `Gdb.step` puts its breakpoint without a single step request (`gdb.py:570-577`): behind the current
instruction. None: the size of the instruction is unknown, an error message is returned. -/
def stepTarget (E : Option Disassembler) (h : BpHost) : Py BpSt (Option Nat) :=
  Py.bind (onRegs (getInstrPointer h.table h.regKernel)) fun ip =>
  Py.bind (readInstrSize E h ip) fun size =>
  match size with
  | none => Py.pure none
  | some 0 => Py.pure none
  | some n => Py.pure (some (ip + n))

/-- The rest of `Gdb.step` (`gdb.py:578-598`), also used by `until`: a breakpoint at `address`, continue, wait
for SIGTRAP, remove the breakpoint. `cont` is `process.cont()`; the tracee runs in `run`: the state it
stops in with SIGTRAP, or an exception of `waitSignals` (any other event). -/
def stepTo (E : Option Disassembler) (h : BpHost) (cont run : Py BpSt Unit) (address : Nat) : Py BpSt Bool :=
  Py.bind (readInstrSize E h address) fun size =>
  Py.bind (createBreakpoint h address size) fun bp =>
  Py.bind cont fun _ =>
  Py.tryCatch (Py.bind run fun _ => Py.bind (desinstall h bp true) fun _ => Py.pure true) fun e =>
    some (Py.bind (desinstall h bp false) fun _ => Py.raise e)

/-- `Gdb.step` without a single step request (`gdb.py:566-598`). `false`: an error message. -/
def gdbStepOver (E : Option Disassembler) (h : BpHost) (cont run : Py BpSt Unit) : Py BpSt Bool :=
  Py.bind (stepTarget E h) fun address =>
  match address with
  | none => Py.pure false
  | some address => stepTo E h cont run address

end PT
