import Verif.Model.Fault
import Verif.Model.GdbCmd
import Verif.Model.Regs

/-
Model of the functions that show the state of a process as lines of text: `dumpRegs` (`ptrace/tools.py:8-23`), `dumpRegs`, `dumpStack` and
`dumpMaps` of a process (`ptrace/debugger/process.py:675-719`), the text of a backtrace (`ptrace/debugger/backtrace.py:21-42`) and the commands
`backtrace`, `gcore` and the display of the current instruction of `gdb.py`.

Registers are those of `Model/Regs.lean`. Stack pointer, words and mappings are read by arbitrary operations of the process.
-/

namespace PT

/-- `max(len(name) for name, type in regs._fields_)` (`tools.py:12`); a structure has a field. -/
def nameWidth (fields : List (String × Nat)) : Nat := fields.foldl (fun w f => max w f.1.toList.length) 0

/-- `text` with spaces in front: `"% <width>s" % text`. -/
def padLeft (width : Nat) (text : Str) : Str := List.replicate (width - text.length) ' ' ++ text

/-- The value of a register (`tools.py:17-22`); `sizeof` counts bytes. -/
def registerText (a : Arch) (bits value : Nat) : Str :=
  if bits / 8 = 32 then formatUintHex32 value
  else if bits / 8 = 16 then formatUintHex16 value
  else formatWordHex a value

/-- `dumpRegs` (`tools.py:8-23`). -/
def regLines (a : Arch) (t : RegTable) (regs : String → Nat) : List Str :=
  t.fields.map fun f => padLeft (nameWidth t.fields) f.1.toList ++ " = ".toList ++ registerText a f.2 (regs f.1)

/-- `PtraceProcess.dumpRegs` (`process.py:712-719`); `errText` is `str(err)`. -/
def dumpRegs (a : Arch) (t : RegTable) (k : RegKernel) (errText : Exc → Str) : Py (Con RegSt) Unit := fun c =>
  match inside (getregs k) c with
  | (.ok regs, d) => sayAll (regLines a t regs) d
  | (.error e, d) => if e.isPtrace then say ("Unable to read registers: ".toList ++ errText e) d else (.error e, d)

/-- `"%+ 3i" % n`: the flag `+` wins over the space. -/
def signedText (n : Int) : Str := padLeft 3 (if n < 0 then pyDecInt n else '+' :: pyDecInt n)

/-- The loop of `_dumpStack` (`process.py:686-693`): number of lines displayed. -/
def stackLoop {σ : Type} (a : Arch) (readWord : Int → Py σ Nat) (sp : Nat) : List Int → Nat → Py (Con σ) Nat
  | [], displayed => Py.pure displayed
  | index :: rest, displayed => fun c =>
    match inside (readWord (sp + index * a.W)) c with
    | (.ok value, d) =>
      Py.bind (say ("STACK".toList ++ signedText (index * a.W) ++ ": ".toList ++ formatWordHex a value)) (fun _ =>
        stackLoop a readWord sp rest (displayed + 1)) d
    | (.error e, d) => if e.isPtrace then stackLoop a readWord sp rest displayed d else (.error e, d)

/-- `range(-5, 5 + 1)` -/
def stackIndexes : List Int := [-5, -4, -3, -2, -1, 0, 1, 2, 3, 4, 5]

/-- `PtraceProcess._dumpStack` (`process.py:683-695`). -/
def dumpStackWords {σ : Type} (a : Arch) (getStackPointer : Py σ Nat) (readWord : Int → Py σ Nat) : Py (Con σ) Unit :=
  Py.bind (inside getStackPointer) fun sp =>
  Py.bind (stackLoop a readWord sp stackIndexes 0) fun displayed =>
  if displayed = 0 then say ("ERROR: unable to read the stack (SP=".toList ++ formatAddress a sp ++ [')']) else Py.pure ()

/-- `if stack: log("STACK: %s" % stack)` (`process.py:679-680`). -/
def stackLine (a : Arch) : Option Mapping → List Str
  | some stack => ["STACK: ".toList ++ mappingText a stack]
  | none => []

/-- `PtraceProcess.dumpStack` (`process.py:675-681`, `findStack` `process.py:285-289`). -/
def dumpStack {σ : Type} (a : Arch) (maps : Py σ (List Mapping)) (getStackPointer : Py σ Nat) (readWord : Int → Py σ Nat) : Py (Con σ) Unit :=
  Py.bind (inside maps) fun ms =>
  Py.bind (sayAll (stackLine a (findStack ms))) fun _ =>
  dumpStackWords a getStackPointer readWord

/-- `PtraceProcess.dumpMaps` (`process.py:697-704`). -/
def dumpMaps {σ : Type} (a : Arch) (maps : Py σ (List Mapping)) : Py (Con σ) Unit :=
  Py.bind (inside maps) fun ms => sayAll (ms.map fun m => "MAPS: ".toList ++ mappingText a m)

/-- `BacktraceFrame.__str__` (`backtrace.py:21-23`). -/
def frameText (a : Arch) (f : BtFrame) : Str :=
  "IP=".toList ++ formatAddress a f.ip ++ ": ??? (".toList ++ (", ".toList).intercalate (f.arguments.map (formatWordHex a)) ++ [')']

/-- `Gdb.backtrace` (`gdb.py:495-501`) with `Backtrace.__iter__` and `__len__` (`backtrace.py:38-42`). -/
def gdbBacktrace {σ : Type} (a : Arch) (trace : Py σ Backtrace) : Py (Con σ) Unit :=
  Py.bind (inside trace) fun t =>
  Py.bind (sayAll (t.frames.map (frameText a))) fun _ =>
  if t.truncated then say ("--limited to depth ".toList ++ pyDec t.frames.length ++ "--".toList) else Py.pure ()

/-- `Gdb.displayInstr` (`gdb.py:547-556`); `dumpCode` prints by itself. -/
def displayInstr {σ : Type} (a : Arch) (disassembler : Bool) (disassembleOne : Py σ (Nat × Str)) (dumpCode : Py (Con σ) Unit) (errText : Exc → Str)
    (pre : Str) : Py (Con σ) Unit := fun c =>
  let m : Py (Con σ) Unit :=
    if disassembler then Py.bind (inside disassembleOne) fun i => say (pre ++ ' ' :: formatAddress a i.1 ++ ": ".toList ++ i.2)
    else dumpCode
  match m c with
  | (.error e, d) => if e.isPtrace then say ("Unable to read current instruction: ".toList ++ errText e) d else (.error e, d)
  | r => r

/-- A file opened by `gcore`: text mode without a buffer is refused with `ValueError` (Python 3). -/
def openFile (exists_ : Bool) (textMode unbuffered : Bool) : Except Exc Unit :=
  if textMode && unbuffered then .error .value
  else if exists_ then .ok () else .error (.os 2)

/-- `Gdb.gcore` (`gdb.py:409-427`): the bytes written to the dump. `maps` are the lines of `maps`: start, end, whether the region can be read,
whether the line contains `/lib` or `/usr`. -/
def gdbGcore (mapsThere memThere dumpThere : Bool) (maps : List (Nat × Nat × Bool × Bool)) (readMem : Nat → Nat → Bytes) : Except Exc Bytes :=
  match openFile mapsThere true false with
  | .error e => .error e
  | .ok _ =>
  match openFile memThere true true with
  | .error e => .error e
  | .ok _ =>
  match openFile dumpThere false false with
  | .error e => .error e
  | .ok _ => .ok (maps.flatMap fun m => if m.2.2.1 && !m.2.2.2 then readMem m.1 (m.2.1 - m.1) else [])

end PT
