import Verif.Model.Backtrace
import Verif.Model.Proc

/-
Model of `ptrace/debugger/ptrace_signal.py` and `ptrace/debugger/signal_reason.py`: why a signal was sent.

The operations of the process are arbitrary (`FaultProc`). The regular expressions have one way to match (each repeated class excludes the
character that has to follow), so they are functions here. The text of an instruction is ASCII. Messages are in `Model/Report`;
here is the data shown in them: address, size, registers and mappings.
-/

namespace PT

/-- The CPUs that matter to `REGISTER_REGEX` (`signal_reason.py:7-17`). -/
inductive FaultCpu where
  | i386
  | x86_64
  | other
  deriving DecidableEq, Repr

/-- What is asked from the process. `siginfo` is `getsiginfo()._sigfault._addr`, where `None` stands for address 0; `child` is `_sigchld`. -/
structure FaultProc (σ : Type) where
  siginfo : Py σ (Option Nat)
  child : Py σ (Nat × Nat × Nat)
  disassembleOne : Py σ Str
  getInstrPointer : Py σ Nat
  getStackPointer : Py σ Nat
  readMappings : Py σ (List Mapping)
  getreg : Str → Py σ Nat
  parseExpression : Str → Py σ Int

/-- The platform: `RUNNING_LINUX`, `HAS_DISASSEMBLER`, the CPU, `CPU_64BITS`. -/
structure FaultEnv where
  linux : Bool
  disassembler : Bool
  cpu : FaultCpu
  is64 : Bool

/-- The address of a reason: none, one, or a tuple. -/
inductive FaultAddr where
  | none
  | one (a : Int)
  | many (l : List Int)
  deriving DecidableEq, Repr

/-- The classes of `signal_reason.py`. -/
inductive FaultKind where
  | divisionByZero
  | abort
  | stackOverflow
  | access
  | read
  | write
  | instruction
  | childExit
  deriving DecidableEq, Repr

/-- A line of `findMappings`: an address is part of a mapping, or not mapped. -/
structure MapNote where
  address : Int
  mapping : Option Mapping
  deriving DecidableEq, Repr

/-- What the message of some classes says beside: the stack mapping of `StackOverflow` (`signal_reason.py:112`), and number, status and user of
`ChildExit` (`signal_reason.py:172-182`). -/
inductive ReasonNote where
  | none
  | stack (m : Mapping)
  | child (pid status uid : Nat)
  deriving DecidableEq, Repr

/-- `SignalInfo` (`signal_reason.py:65-91`). -/
structure Reason where
  kind : FaultKind
  address : FaultAddr
  size : Option Nat
  instr : Option Str
  registers : List (Str × Nat)
  mappings : List MapNote
  note : ReasonNote
  deriving DecidableEq, Repr

/-- `try: m except PtraceError: h` -/
def exceptPtrace {σ α : Type} (m h : Py σ α) : Py σ α := fun s =>
  match m s with
  | (.error e, s') => if e.isPtrace then h s' else (.error e, s')
  | r => r

/-- `d[k] = v` -/
def setKey (d : List (Str × Nat)) (k : Str) (v : Nat) : List (Str × Nat) :=
  match d with
  | [] => [(k, v)]
  | (k', v') :: d => if k' = k then (k, v) :: d else (k', v') :: setKey d k v

/-- `[A-Z]` -/
def isUp (c : Char) : Bool := decide ('A'.toNat ≤ c.toNat ∧ c.toNat ≤ 'Z'.toNat)

/-- A word character of a regular expression (ASCII). -/
def isWordChar (c : Char) : Bool := c.isAlphanum || c == '_'

/-- `REGISTER_REGEX` without the word boundaries (`signal_reason.py:8-12`). -/
def isRegisterName (cpu : FaultCpu) : Str → Bool
  | [a, b] => (a ∈ "CDEFGS".toList && b == 'S') || (a ∈ "ABCD".toList && b == 'L')
  | [a, b, c] => (a == 'E' || (cpu == .x86_64 && a == 'R')) && isUp b && isUp c
  | _ => false

/-- The parts of a text between characters that are no word characters. -/
def wordRuns : Str → List Str
  | [] => [[]]
  | c :: s =>
    if isWordChar c then
      match wordRuns s with
      | w :: ws => (c :: w) :: ws
      | [] => [[c]]
    else [] :: wordRuns s

/-- `REGISTER_REGEX.finditer`: a match is a whole word, because of `\b` at both ends. -/
def findRegisters (cpu : FaultCpu) (asm : Str) : List Str := (wordRuns asm).filter (isRegisterName cpu)

/-- The loop of `extractRegisters` (`signal_reason.py:28-35`). -/
def readRegisters {σ : Type} (P : FaultProc σ) : List Str → List (Str × Nat) → Py σ (List (Str × Nat))
  | [], registers => Py.pure registers
  | name :: names, registers => fun s =>
    match P.getreg (name.map Char.toLower) s with
    | (.ok value, s') => readRegisters P names (setKey registers (name.map Char.toLower) value) s'
    | (.error e, s') => if e.isPtrace then readRegisters P names registers s' else (.error e, s')

/-- `extractRegisters` (`signal_reason.py:20-36`); without a space in the text, `split(" ", 1)[1]` raises `IndexError`. -/
def extractRegisters {σ : Type} (v : FaultEnv) (P : FaultProc σ) (instr : Option Str) : Py σ (List (Str × Nat)) :=
  match instr, v.cpu with
  | none, _ => Py.pure []
  | some _, .other => Py.pure []
  | some asm, cpu =>
    match (asm.map Char.toUpper).dropWhile (· ≠ ' ') with
    | [] => Py.raise .index
    | _ :: operands => readRegisters P (findRegisters cpu operands) []

/-- The mappings named for one address (`signal_reason.py:51-61`). -/
def noteAddress (maps : List Mapping) (size : Nat) (address : Int) : List MapNote :=
  let hits := maps.filter fun m => decide ((m.start : Int) ≤ address ∧ address < m.stop) ||
    decide ((m.start : Int) ≤ address + size - 1 ∧ address + size - 1 < m.stop)
  if hits = [] then [⟨address, none⟩] else hits.map fun m => ⟨address, some m⟩

/-- `findMappings` (`signal_reason.py:39-62`). -/
def findMappings {σ : Type} (P : FaultProc σ) (address : FaultAddr) (size : Option Nat) : Py σ (List MapNote) :=
  let notes (addresses : List Int) : Py σ (List MapNote) :=
    Py.bind P.readMappings fun maps =>
    Py.pure (if maps = [] then [] else addresses.flatMap (noteAddress maps (size.getD 0)))
  match address with
  | .none => Py.pure []
  | .one a => notes [a]
  | .many l => notes l

/-- `SignalInfo.__init__` (`signal_reason.py:67-77`). -/
def signalInfo {σ : Type} (v : FaultEnv) (P : FaultProc σ) (kind : FaultKind) (address : FaultAddr) (size : Option Nat) (instr : Option Str)
    (registers : List (Str × Nat)) : Py σ Reason :=
  Py.bind (extractRegisters v P instr) fun found =>
  Py.bind (findMappings P address size) fun mappings =>
  Py.pure ⟨kind, address, size, instr, registers.foldl (fun d r => setKey d r.1 r.2) found, mappings, .none⟩

/-- `InvalidMemoryAccess.__init__` (`signal_reason.py:122-141`) and its subclasses: `formatAddress` of a tuple raises `TypeError`. -/
def accessReason {σ : Type} (v : FaultEnv) (P : FaultProc σ) (kind : FaultKind) (address : FaultAddr) (size : Option Nat) (instr : Option Str)
    (registers : List (Str × Nat)) : Py σ Reason :=
  match address with
  | .many _ => Py.raise .type
  | _ => signalInfo v P kind address size instr registers

/-- `NAMED_WORD_SIZE` (`ptrace_signal.py:27-32`). -/
def namedWordSize : List (Str × Nat) := [("BYTE".toList, 1), ("WORD".toList, 2), ("DWORD".toList, 4), ("DQWORD".toList, 8)]

/-- `s` after the prefix `p`. -/
def eat : Str → Str → Option Str
  | [], s => some s
  | _ :: _, [] => none
  | a :: p, b :: s => if a = b then eat p s else none

/-- `DEREF_REGEX` (`ptrace_signal.py:25`): the size, the expression, and the text after the bracket. -/
def matchDeref (s : Str) : Option (Option Nat × Str × Str) :=
  let sized := namedWordSize.findSome? fun p => (eat (p.1 ++ [' ']) s).bind fun t => if t.head? = some '[' then some (p.2, t) else none
  let size := sized.map Prod.fst
  match (sized.map Prod.snd).getD s with
  | '[' :: t =>
    match t.takeWhile (· ≠ ']'), t.dropWhile (· ≠ ']') with
    | e :: es, _ :: rest => some (size, e :: es, rest)
    | _, _ => none
  | _ => none

/-- `^(?:MOV|TEST)[A-Z]* %s,` (`ptrace_signal.py:89`) -/
def matchWrite (asm : Str) : Option (Option Nat × Str) :=
  match (eat "MOV".toList asm).or (eat "TEST".toList asm) with
  | none => none
  | some t =>
    match t.dropWhile isUp with
    | ' ' :: u =>
      match matchDeref u with
      | some (size, e, ',' :: _) => some (size, e)
      | _ => none
    | _ => none

/-- `INSTR_REGEX` and a space (`ptrace_signal.py:35`) -/
def matchOperator (asm : Str) : Option Str :=
  if 3 ≤ (asm.takeWhile isUp).length ∧ (asm.takeWhile isUp).length ≤ 10 then
    match asm.dropWhile isUp with
    | ' ' :: t => some t
    | _ => none
  else none

/-- `^%s %s,` (`ptrace_signal.py:98`) -/
def matchRead (asm : Str) : Option (Option Nat × Str) :=
  match matchOperator asm with
  | none => none
  | some t =>
    match matchDeref t with
    | some (size, e, ',' :: _) => some (size, e)
    | _ => none

/-- `%s [^,]+, %s` (`ptrace_signal.py:107`) -/
def matchSource (asm : Str) : Option (Option Nat × Str) :=
  match matchOperator asm with
  | none => none
  | some t =>
    match t.takeWhile (· ≠ ','), t.dropWhile (· ≠ ',') with
    | _ :: _, ',' :: ' ' :: u =>
      match matchDeref u with
      | some (size, e, _) => some (size, e)
      | none => none
    | _, _ => none

/-- `^(?:REP(?:NZ)? )?(?P<operator>MOVS|SCAS)(?P<suffix>[BWD])?` (`ptrace_signal.py:116-117`): whether the operator is `MOVS`, and the size. -/
def matchString (asm : Str) : Option (Bool × Option Nat) :=
  let t := ((eat "REPNZ ".toList asm).or (eat "REP ".toList asm)).getD asm
  let size (u : Str) : Option Nat := match u with
    | 'B' :: _ => some 1
    | 'W' :: _ => some 2
    | 'D' :: _ => some 4
    | _ => none
  match eat "MOVS".toList t, eat "SCAS".toList t with
  | some u, _ => some (true, size u)
  | none, some u => some (false, size u)
  | none, none => none

/-- `evalFaultAddress` if there is no address (`ptrace_signal.py:46-54`, 91-92, 100-101, 109-110). -/
def faultAddress {σ : Type} (P : FaultProc σ) (address : Option Nat) (expr : Str) : Py σ FaultAddr :=
  match address with
  | some a => Py.pure (.one a)
  | none => fun s =>
    match P.parseExpression expr s with
    | (.ok a, s') => (.ok (.one a), s')
    | (.error .value, s') => (.ok .none, s')
    | (.error e, s') => (.error e, s')

/-- The registers and the class found by `movsInstr` inside its `try` (`ptrace_signal.py:127-151`). -/
def movsAccess {σ : Type} (v : FaultEnv) (P : FaultProc σ) (address : Option Nat) (isMovs : Bool) :
    Py σ (FaultKind × FaultAddr × List (Str × Nat)) :=
  let source : Str := if v.is64 then "rsi".toList else "esi".toList
  let dest : Str := if v.is64 then "rdi".toList else "edi".toList
  Py.bind (P.getreg source) fun sourceAddr =>
  if isMovs then
    Py.bind (P.getreg dest) fun destAddr =>
    match address with
    | some a => Py.pure (if a = destAddr then .write else if a = sourceAddr then .read else .access, .one a, [(source, sourceAddr), (dest, destAddr)])
    | none => Py.pure (.access, .many [(sourceAddr : Int), (destAddr : Int)], [(source, sourceAddr), (dest, destAddr)])
  else
    match address with
    | some a => Py.pure (if a = sourceAddr then .read else .access, .one a, [(source, sourceAddr)])
    | none => Py.pure (.access, .many [(sourceAddr : Int)], [(source, sourceAddr)])

/-- `movsInstr` (`ptrace_signal.py:122-155`). -/
def movsInstr {σ : Type} (v : FaultEnv) (P : FaultProc σ) (address : Option Nat) (asm : Str) (isMovs : Bool) (size : Option Nat) : Py σ Reason :=
  let plain : FaultAddr := match address with
    | some a => .one a
    | none => .none
  Py.bind (exceptPtrace (movsAccess v P address isMovs) (Py.pure (.access, plain, []))) fun r =>
  accessReason v P r.1 r.2.1 size (some asm) r.2.2

/-- `memoryFaultInstr` (`ptrace_signal.py:85-120`). -/
def memoryFaultInstr {σ : Type} (v : FaultEnv) (P : FaultProc σ) (asm : Str) (address : Option Nat) : Py σ (Option Reason) :=
  let reason (kind : FaultKind) (m : Option Nat × Str) : Py σ (Option Reason) :=
    Py.bind (faultAddress P address m.2) fun a =>
    Py.bind (accessReason v P kind a m.1 (some asm) []) fun r => Py.pure (some r)
  match matchWrite asm with
  | some m => reason .write m
  | none =>
    match matchRead asm with
    | some m => reason .read m
    | none =>
      match matchSource asm with
      | some m => reason .read m
      | none =>
        match matchString asm with
        | some (isMovs, size) => Py.bind (movsInstr v P address asm isMovs size) fun r => Py.pure (some r)
        | none => Py.pure none

/-- `getInstruction` (`ptrace_signal.py:77-83`). -/
def getInstruction {σ : Type} (v : FaultEnv) (P : FaultProc σ) : Py σ (Option Str) :=
  if v.disassembler then exceptPtrace (Py.bind P.disassembleOne fun t => Py.pure (some t)) (Py.pure none) else Py.pure none

/-- `findStack` (`process.py:285-289`). -/
def findStack (maps : List Mapping) : Option Mapping := maps.find? fun m => m.pathname = some "[stack]".toList

/-- The test for a call to an invalid address (`ptrace_signal.py:176-184`). The reason is created inside the `try`. -/
def instructionFault {σ : Type} (v : FaultEnv) (P : FaultProc σ) (address : Option Nat) : Py σ (Option Reason) :=
  match address with
  | none => Py.pure none
  | some a =>
    exceptPtrace
      (Py.bind P.getInstrPointer fun ip =>
        if ip = a then
          Py.bind (signalInfo v P .instruction (.one ip) none none [("<instr pointer>".toList, ip)]) fun r => Py.pure (some r)
        else Py.pure none)
      (Py.pure none)

/-- The test for a stack overflow (`ptrace_signal.py:186-193`). -/
def stackFault {σ : Type} (v : FaultEnv) (P : FaultProc σ) (instr : Option Str) : Py σ (Option Reason) :=
  Py.bind P.readMappings fun maps =>
  match findStack maps with
  | none => Py.pure none
  | some stack =>
    Py.bind P.getStackPointer fun sp =>
    if ¬ (stack.start ≤ sp ∧ sp ≤ stack.stop) then
      Py.bind (signalInfo v P .stackOverflow (.one sp) none instr [("<stack ptr>".toList, sp)]) fun r => Py.pure (some { r with note := .stack stack })
    else Py.pure none

/-- The end of `memoryFault` (`ptrace_signal.py:195-203`); `old` is the reason of an earlier analysis. -/
def accessFault {σ : Type} (v : FaultEnv) (P : FaultProc σ) (instr : Option Str) (address : Option Nat) (old : Option Reason) : Py σ Reason :=
  let plain : FaultAddr := match address with
    | some a => .one a
    | none => .none
  let generic := accessReason v P .access plain none instr []
  match instr with
  | none => generic
  | some asm =>
    Py.bind (memoryFaultInstr v P asm address) fun r =>
    match r.or old with
    | some r => Py.pure r
    | none => generic

/-- `memoryFault` (`ptrace_signal.py:163-203`). -/
def memoryFault {σ : Type} (v : FaultEnv) (P : FaultProc σ) (old : Option Reason) : Py σ Reason :=
  Py.bind (if v.linux then Py.bind P.siginfo fun a => Py.pure (some (a.getD 0)) else Py.pure none) fun address =>
  Py.bind (getInstruction v P) fun instr =>
  Py.bind (instructionFault v P address) fun r =>
  match r with
  | some r => Py.pure r
  | none =>
    Py.bind (stackFault v P instr) fun r =>
    match r with
    | some r => Py.pure r
    | none => accessFault v P instr address old

/-- `mathError` (`ptrace_signal.py:205-212`): `I?DIV (.*)`. -/
def mathError {σ : Type} (v : FaultEnv) (P : FaultProc σ) (old : Option Reason) : Py σ (Option Reason) :=
  Py.bind (getInstruction v P) fun instr =>
  match instr with
  | none => Py.pure old
  | some asm =>
    if ((eat "IDIV ".toList asm).or (eat "DIV ".toList asm)).isSome then
      Py.bind (signalInfo v P .divisionByZero .none none (some asm) []) fun r => Py.pure (some r)
    else Py.pure old

/-- `_analyze` (`ptrace_signal.py:66-75`) with the numbers of Linux: SIGSEGV, SIGBUS, SIGFPE, SIGCHLD, SIGABRT. -/
def analyze {σ : Type} (v : FaultEnv) (P : FaultProc σ) (signum : Nat) (old : Option Reason) : Py σ (Option Reason) :=
  let plain (kind : FaultKind) (note : ReasonNote) : Reason := ⟨kind, .none, none, none, [], [], note⟩
  if signum = 11 ∨ signum = 7 then Py.bind (memoryFault v P old) fun r => Py.pure (some r)
  else if signum = 8 then mathError v P old
  else if signum = 17 then
    if v.linux then Py.bind P.child fun c => Py.pure (some (plain .childExit (.child c.1 c.2.1 c.2.2)))
    else Py.pure (some (plain .childExit .none))
  else if signum = 6 then Py.pure (some (plain .abort .none))
  else Py.pure old

end PT
