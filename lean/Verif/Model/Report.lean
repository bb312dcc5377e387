import Verif.Model.Fault
import Verif.Model.GdbCmd
import Verif.Model.Status

/-
Model of the text about a signal: `ProcessSignal.display` (`ptrace/debugger/ptrace_signal.py:222-230`) and the messages of
`ptrace/debugger/signal_reason.py`.

The analysis is `analyze` (`Model/Fault`). The log is a list of lines.
-/

namespace PT

/-- `formatAddress` of an integer: `"0x%016x" % -1` is `0x-000000000000001` (`ptrace/ctypes_tools.py:128-136`). -/
def formatAddressInt (a : Arch) : Int → Str
  | .ofNat n => formatAddress a n
  | .negSucc n => '0' :: 'x' :: '-' :: pyHexPad (if a.is64 then 15 else 7) (n + 1)

/-- `NAME`, `PREFIX` and the start of `PREFIX_ADDR` of `InvalidMemoryAccess`, `InvalidRead` and `InvalidWrite`
(`signal_reason.py:119-121`, 144-147, 150-153). -/
def accessTexts : FaultKind → Str × Str × Str
  | .read => ("invalid_read".toList, "Invalid read".toList, "Invalid read from ".toList)
  | .write => ("invalid_write".toList, "Invalid write".toList, "Invalid write to ".toList)
  | _ => ("invalid_mem_access".toList, "Invalid memory access".toList, "Invalid memory access to ".toList)

/-- The message of `InvalidMemoryAccess` (`signal_reason.py:127-137`). -/
def accessMessage (a : Arch) (kind : FaultKind) (address : FaultAddr) (size : Option Nat) : Str :=
  let message := match address with
    | .none => (accessTexts kind).2.1
    | .one x => (accessTexts kind).2.2 ++ formatAddressInt a x
    | .many l => (accessTexts kind).2.2 ++ (" or ".toList).intercalate (l.map (formatAddressInt a))
  if size.getD 0 ≠ 0 then message ++ " (size=".toList ++ pyDec (size.getD 0) ++ " bytes)".toList else message

/-- The name of `InvalidMemoryAccess` (`signal_reason.py:138-140`); a tuple has raised `TypeError` (`accessReason`). -/
def accessName (a : Arch) (kind : FaultKind) (address : FaultAddr) : Str :=
  match address with
  | .one x => (accessTexts kind).1 ++ '-' :: (formatAddressInt a x).map Char.toLower
  | _ => (accessTexts kind).1

/-- `SignalInfo.text`, by class (`signal_reason.py:94-182`). -/
def reasonText (a : Arch) (signames : List (Nat × Str)) (r : Reason) : Str :=
  match r.kind with
  | .divisionByZero => "Division by zero".toList
  | .abort => "Program received signal SIGABRT, Aborted.".toList
  | .stackOverflow =>
    match r.note with
    | .stack m => "STACK OVERFLOW! Stack pointer is in ".toList ++ mappingText a m
    | _ => []
  | .instruction =>
    match r.address with
    | .one x => "UNABLE TO EXECUTE CODE AT ".toList ++ formatAddressInt a x ++ " (SEGMENTATION FAULT)".toList
    | _ => []
  | .childExit =>
    match r.note with
    | .child pid status _ => childExitText signames (some (pid, status))
    | _ => childExitText signames none
  | kind => accessMessage a kind r.address r.size

/-- A line of `findMappings` (`signal_reason.py:51-61`). -/
def mapNoteText (a : Arch) (size : Nat) (n : MapNote) : Str :=
  let place := formatAddressInt a n.address ++ (if 1 < size then "..".toList ++ formatAddressInt a (n.address + size - 1) else [])
  match n.mapping with
  | some m => place ++ " is part of ".toList ++ mappingText a m
  | none => place ++ " is not mapped in memory".toList

/-- `displayExtra` (`signal_reason.py:90-91`, 184-186). -/
def displayExtra (r : Reason) : List Str :=
  match r.note with
  | .child _ _ uid => ["Signal sent by user ".toList ++ pyDec uid]
  | _ => []

/-- `SignalInfo.display` (`signal_reason.py:80-88`). -/
def reasonLines (a : Arch) (signames : List (Nat × Str)) (r : Reason) : List Str :=
  [reasonText a signames r] ++ displayExtra r ++
  (match r.instr with
    | some i => ["- instruction: ".toList ++ i]
    | none => []) ++
  r.mappings.map (fun n => "- mapping: ".toList ++ mapNoteText a (r.size.getD 0) n) ++
  r.registers.map (fun p => "- register ".toList ++ p.1 ++ '=' :: formatWordHex a p.2)

/-- `"-" * 60` -/
def bar : Str := List.replicate 60 '-'

/-- `ProcessSignal.display` (`ptrace_signal.py:222-230`). -/
def signalDisplay {σ : Type} (a : Arch) (signames : List (Nat × Str)) (v : FaultEnv) (P : FaultProc σ) (pid signum : Nat) (old : Option Reason) :
    Py (Con σ) (Option Reason) :=
  Py.bind (inside (analyze v P signum old)) fun r =>
  Py.bind (say bar) fun _ =>
  Py.bind (say ("PID: ".toList ++ pyDec pid)) fun _ =>
  Py.bind (say ("Signal: ".toList ++ signalName signames signum)) fun _ =>
  Py.bind (sayAll (r.elim [] (reasonLines a signames))) fun _ =>
  Py.bind (say bar) fun _ => Py.pure r

end PT
