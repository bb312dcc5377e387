import Verif.Model.Memory
import Verif.Model.Regs
import Verif.Model.Dict

/-
Model of `/repo/ptrace/debugger/breakpoint.py` and of the breakpoint dictionary of
`/repo/ptrace/debugger/process.py:741-759`.
-/

namespace PT

/-- A `Breakpoint` object (`breakpoint.py:16-37`). -/
structure BpObj where
  address : Nat
  size : Nat
  oldBytes : Bytes
  installed : Bool
  deriving DecidableEq, Repr

/-- The host: memory and register oracles, the CPU family. -/
structure BpHost where
  kernel : Kernel
  powerpc : Bool
  table : RegTable
  regKernel : RegKernel

/-- The tracee and the `PtraceProcess` fields breakpoints use. `objs` are all `Breakpoint` objects created so
far (an object is named by its index), `dict` is `process.breakpoints` in insertion order. The weak
reference to the process is assumed alive and objects are never garbage collected. -/
structure BpSt where
  m : MemSt
  r : RegSt
  running : Bool
  objs : List BpObj := []
  dict : List (Nat × Nat) := []

/-- Run a memory operation of the process. -/
def onMem {α : Type} (f : Py MemSt α) : Py BpSt α := fun s =>
  let (r, m') := f s.m
  (r, { s with m := m' })

/-- Run a register operation of the process. -/
def onRegs {α : Type} (f : Py RegSt α) : Py BpSt α := fun s =>
  let (r, r') := f s.r
  (r, { s with r := r' })

/-- `size` of a breakpoint (`breakpoint.py:20-24`). -/
def bpSize (h : BpHost) (size : Option Nat) : Nat :=
  if h.powerpc then h.kernel.arch.W else size.getD 1

/-- The trap instruction (`breakpoint.py:30-35`). -/
def bpTrap (h : BpHost) (size : Nat) : Except Exc Bytes :=
  if h.powerpc then word2bytes h.kernel.arch 0x0cc00000 else .ok (List.replicate size 0xCC)

/-- The test of one breakpoint in `findBreakpoint` (`process.py:743`). -/
def bpCovers (objs : List BpObj) (address : Nat) (e : Nat × Nat) : Option Nat :=
  match objs[e.2]? with
  | some b => if b.address ≤ address ∧ address < b.address + b.size then some e.2 else none
  | none => none

/-- `PtraceProcess.findBreakpoint` (`process.py:741-745`): index of the object. -/
def findBreakpoint (s : BpSt) (address : Nat) : Option Nat := s.dict.findSome? (bpCovers s.objs address)

/-- `Breakpoint.__init__` (`breakpoint.py:16-37`); an object whose constructor raises is dropped (its
`_installed` is false, so `__del__` does nothing). -/
def newBreakpoint (h : BpHost) (address : Nat) (size : Option Nat) : Py BpSt Nat :=
  let size := bpSize h size
  Py.bind (onMem (readBytes h.kernel address size)) fun old_bytes =>
  Py.bind (liftE (bpTrap h size)) fun new_bytes =>
  Py.bind (onMem (writeBytes h.kernel address new_bytes)) fun _ => fun s =>
    (.ok s.objs.length, { s with objs := s.objs ++ [⟨address, size, old_bytes, true⟩] })

/-- `PtraceProcess.createBreakpoint` (`process.py:747-753`). -/
def createBreakpoint (h : BpHost) (address : Nat) (size : Option Nat) : Py BpSt Nat := fun s =>
  match findBreakpoint s address with
  | some _ => (.error (.ptrace none), s)
  | none =>
    Py.bind (newBreakpoint h address size) (fun id s =>
      (.ok id, { s with dict := dictSet s.dict address id })) s

/-- `PtraceProcess.removeBreakpoint` (`process.py:758-759`). -/
def removeBreakpoint (address : Nat) : Py BpSt Unit := fun s =>
  if dictHas s.dict address then (.ok (), { s with dict := dictDel s.dict address })
  else (.error .key, s)

/-- `Breakpoint.desinstall` (`breakpoint.py:39-55`) of the object `id` (nothing happens for an index that
names no object). -/
def desinstall (h : BpHost) (id : Nat) (set_ip : Bool) : Py BpSt Unit := fun s =>
  match s.objs[id]? with
  | none => (.ok (), s)
  | some b =>
    if ¬ b.installed then (.ok (), s)
    else
      (Py.bind (fun s => if s.running then onMem (writeBytes h.kernel b.address b.oldBytes) s else (.ok (), s))
        fun _ =>
      Py.bind (if set_ip then onRegs (setInstrPointer h.table h.regKernel b.address) else Py.pure ()) fun _ =>
      removeBreakpoint b.address) { s with objs := s.objs.set id { b with installed := false } }

end PT
