import Verif.Model.Breakpoint

/-
Model of what happens to breakpoints when a process is let go, its object is no longer used, it forks or executes another program:
`PtraceProcess.detach` and `__del__` (`ptrace/debugger/process.py:291-298`, 761-765), `Breakpoint.__del__` (`ptrace/debugger/breakpoint.py:62-66`),
`PtraceProcess.removeBreakpoint` called by itself (`process.py:758-759`), and new `PtraceProcess` objects (`process.py:158-177`).

* Python runs `__del__` of an object when nothing refers to it any longer. A breakpoint refers to its process by a weak reference
  (`breakpoint.py:18`), which is dead before finalisers of a process that is no longer used free its breakpoints.
* An exception in a finaliser is not passed on; Python prints it.
* `deleteProcess` (the registry) is in `Model/Debugger`.
-/

namespace PT

/-- A process object, its breakpoints and who uses them. -/
structure LifeSt where
  bp : BpSt
  /-- `is_attached` -/
  attached : Bool
  /-- the weak references of the breakpoints lead to the process -/
  alive : Bool := true
  /-- breakpoints that other code refers to, besides the list of the process -/
  held : List Nat := []

/-- `PtraceProcess.detach` (`process.py:291-298`); `detachErr` is the error number of `PTRACE_DETACH`, 0 if it succeeds. -/
def lifeDetach (detachErr : LifeSt → Nat) : Py LifeSt Unit := fun s =>
  if !s.attached then (.ok (), s)
  else
    let t := { s with attached := false }
    if s.bp.running ∧ detachErr s ≠ 0 then (.error (.ptrace (some (detachErr s))), t) else (.ok (), t)

/-- `Breakpoint.desinstall` (`breakpoint.py:39-55`) with its weak reference: without a process only the mark is removed. -/
def desinstallWeak (h : BpHost) (id : Nat) (set_ip : Bool) : Py LifeSt Unit := fun s =>
  if s.alive then
    let r := desinstall h id set_ip s.bp
    (r.1, { s with bp := r.2 })
  else
    match s.bp.objs[id]? with
    | none => (.ok (), s)
    | some b => (.ok (), { s with bp := { s.bp with objs := s.bp.objs.set id { b with installed := false } } })

/-- `Breakpoint.__del__` (`breakpoint.py:62-66`). -/
def bpFinal (h : BpHost) (id : Nat) (s : LifeSt) : LifeSt := (desinstallWeak h id false s).2

/-- Finalisers of several breakpoints. -/
def bpFinals (h : BpHost) : List Nat → LifeSt → LifeSt
  | [], s => s
  | id :: ids, s => bpFinals h ids (bpFinal h id s)

/-- The object of the process is no longer used: `__del__` (`process.py:761-765`) detaches, the weak references die, and the breakpoints of
the list that nothing else refers to are finalised, in the order `ids`. -/
def lifeFinal (h : BpHost) (detachErr : LifeSt → Nat) (ids : List Nat) (s : LifeSt) : LifeSt :=
  bpFinals h ids { (lifeDetach detachErr s).2 with alive := false }

/-- `process.removeBreakpoint(bp)` (`process.py:758-759`) as a call of the user, for the breakpoint object `id`: the entry of the list is
deleted, then the object is finalised unless it is referred to. -/
def removeCall (h : BpHost) (id : Nat) : Py LifeSt Unit := fun s =>
  match s.bp.objs[id]? with
  | none => (.error .attribute, s)
  | some b =>
    match removeBreakpoint b.address s.bp with
    | (.ok _, t) => (.ok (), if id ∈ s.held then { s with bp := t } else bpFinal h id { s with bp := t })
    | (.error e, t) => (.error e, { s with bp := t })

/-- The object of the child of a fork (`process.py:158-177`): memory and registers are copies, there are no breakpoints. -/
def forkedChild (s : BpSt) : BpSt := { m := { mem := s.m.mem }, r := s.r, running := true }

/-- A process after `execve`: the kernel has put another program into its memory, the object is the same. -/
def executed (s : BpSt) (mem : Nat → Byte) (r : RegSt) : BpSt := { s with m := { s.m with mem := mem }, r := r }

end PT
