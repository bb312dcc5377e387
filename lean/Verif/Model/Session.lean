import Verif.Model.Dump
import Verif.Model.Hexdump
import Verif.Model.ProcInfo

/-
A session of `gdb.py` at a stop of one process: the commands of `Gdb.execute` (`gdb.py:298-365`) that neither resume the process nor change
which processes are traced, put together from the models of the single commands, on one state: memory, registers and breakpoints of the process
and the printed lines. The other commands are a parameter.
-/

namespace PT

/-- What the commands depend on besides the process: the disassembler (none when HAS_DISASSEMBLER is false), character classes and `lower()`, `eval`,
the lines of `/proc/pid/maps` (which may differ between states), the files that `proc` reads, the width of the terminal, texts that are not modelled, the exceptions of `proc`,
the names of signals. -/
structure ShowEnv where
  host : BpHost
  disassembler : Option Disassembler
  ps : PyStr
  eval : Str → Except EvalErr PyVal
  maps : BpSt → Except Exc (List Mapping)
  files : InfoFiles
  repr : Str → Str
  terminal : Nat
  pid : Nat
  errText : Exc → Str
  infoExc : PErr → Exc
  codeText : DumpLine → Str
  signames : List (Nat × Str)

variable (V : ShowEnv)

/-- `readProcessMappings(process)` (`memory_mapping.py:94-129`). -/
def ShowEnv.mappings : Py BpSt (List Mapping) := fun s => (V.maps s, s)

/-- `process.readWord(address)`; `ptrace` takes the address as an unsigned word. -/
def ShowEnv.word (address : Int) : Py BpSt Nat :=
  onMem (readWord V.host.kernel (address % 2 ^ (8 * V.host.kernel.arch.W)).toNat)

/-- `Gdb.parseInteger` with `Gdb.readRegister` (`gdb.py:207-252`). -/
def ShowEnv.parse (text : Str) : Py BpSt Nat :=
  parseInteger V.host.kernel.arch V.ps V.eval (fun name => onRegs (getreg V.host.table V.host.regKernel (String.ofList name)))
    (fun address => V.word address) text

/-- A line of `hexdump` (`gdb.py:474-475,479,489-492`). -/
def dumpText : DumpOut → Str
  | .line address hexa ascii => address ++ "| ".toList ++ hexa ++ "| ".toList ++ ascii
  | .unreadable range => "Warning: Unable to read memory ".toList ++ range
  | .limit n => "(limit to ".toList ++ pyDec n ++ " bytes)".toList

/-- `Gdb.hexdump` (`gdb.py:429-493`) with its output. -/
def ShowEnv.hexdump (text : Str) : Py (Con BpSt) Bool :=
  Py.bind (inside (PT.hexdump V.host.kernel.arch V.parse (fun address size => onMem (readBytes V.host.kernel address size)) V.terminal text)) fun r =>
  match r with
  | none => Py.pure false
  | some lines => Py.bind (sayAll (lines.map dumpText)) fun _ => Py.pure true

/-- `process.dumpCode(start, stop, manage_bp=manage_bp)` (`process.py:192-255`) with its output. -/
def ShowEnv.dumpCode (start stop : Option Nat) (manageBp : Bool) : Py (Con BpSt) Unit := fun c =>
  let r := PT.dumpCode V.disassembler V.host start stop manageBp { p := c.inner }
  (r.1, ⟨r.2.p, c.out ++ r.2.out.map V.codeText⟩)

/-- `process.dumpRegs()` (`process.py:712-719`). -/
def ShowEnv.dumpRegs : Py (Con BpSt) Unit := fun c =>
  let r := PT.dumpRegs V.host.kernel.arch V.host.table V.host.regKernel V.errText ⟨c.inner.r, c.out⟩
  (r.1, ⟨{ c.inner with r := r.2.inner }, r.2.out⟩)

/-- `process.getBacktrace()` with the default limits (`process.py:755-756`, `backtrace.py:45`). -/
def ShowEnv.backtrace : Py BpSt Backtrace :=
  getBacktrace V.host.kernel.arch (onRegs (getInstrPointer V.host.table V.host.regKernel)) (onRegs (getFramePointer V.host.table V.host.regKernel))
    (fun address => V.word address) 6 20

/-- `dumpProcessInfo(self.process.pid, ...)` (`gdb.py:517-519`): the lines before an exception are printed. -/
def ShowEnv.info : Py (Con BpSt) Unit :=
  let r := dumpProcessInfo V.ps.space V.repr V.pid 160 V.files
  Py.bind (sayAll r.1) fun _ => match r.2 with
    | none => Py.pure ()
    | some e => Py.raise (V.infoExc e)

/-- `Gdb.set` (`gdb.py:527-545`). -/
def ShowEnv.set (text : Str) : Py (Con BpSt) Bool :=
  gdbSet V.ps V.parse (fun name value => onRegs (setreg V.host.table V.host.regKernel (String.ofList name) value)) text

/-- `Gdb.breakpoint` (`gdb.py:700-714`). -/
def ShowEnv.break (text : Str) : Py (Con BpSt) Bool :=
  valueOr (inside (V.parse text)) fun address => inside (gdbBreak V.disassembler V.host address)

/-- `Gdb.delete` (`gdb.py:716-727`). -/
def ShowEnv.delete (text : Str) : Py (Con BpSt) Bool :=
  valueOr (inside (V.parse text)) fun address => inside (gdbDelete V.host address)

/-- A method that returns no error message. -/
def silent {τ : Type} (m : Py τ Unit) : Py τ Bool := Py.bind m fun _ => Py.pure true

/-- `Gdb.execute` (`gdb.py:298-365`) at a stop; `other` are the commands that are not of this session. -/
def ShowEnv.run (other : Handler → Str → Py (Con BpSt) Bool) (handler : Handler) (text : Str) : Py (Con BpSt) Bool :=
  match handler with
  | .procInfo => silent V.info
  | .dumpRegs => silent V.dumpRegs
  | .dumpStack => silent (dumpStack V.host.kernel.arch V.mappings (onRegs (getStackPointer V.host.table V.host.regKernel)) V.word)
  | .backtrace => silent (gdbBacktrace V.host.kernel.arch V.backtrace)
  | .whereTrue => gdbWhere V.ps.space (fun t => inside (V.parse t)) V.dumpCode text false
  | .whereOriginal => gdbWhere V.ps.space (fun t => inside (V.parse t)) V.dumpCode text true
  | .dumpMaps => silent (dumpMaps V.host.kernel.arch V.mappings)
  | .set => V.set text
  | .breakpoint => V.break text
  | .displayBreakpoints => fun c => silent (sayAll (gdbBreakpoints V.host.kernel.arch [(V.pid, c.inner)])) c
  | .displaySignals => silent (sayAll (gdbSignalLines V.signames))
  | .delete => V.delete text
  | .hexdump => V.hexdump text
  | .print => gdbPrint V.host.kernel.arch V.parse V.mappings text
  | h => other h text

/-- `Gdb.execute`: an unknown command is an error message. -/
def ShowEnv.execute (other : Handler → Str → Py (Con BpSt) Bool) (command : Str) : Py (Con BpSt) Bool :=
  match dispatch command with
  | some (handler, text) => V.run other handler text
  | none => Py.pure false

/-- Lines entered one after the other (`Gdb.mainLoop`, `gdb.py:804-847`). An error message or an exception ends a line; an exception that ends gdb
ends the session, which is then a shorter one. -/
def ShowEnv.session (other : Handler → Str → Py (Con BpSt) Bool) : List Str → Con BpSt → Con BpSt
  | [], c => c
  | line :: lines, c => ShowEnv.session other lines (runLine (V.execute other) V.ps.space (splitOn ';' line) c).2

end PT
