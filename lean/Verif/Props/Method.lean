import Verif.Spec.Method
import Verif.Spec.Debugger

/-! C140: a method of a process makes one request, for this process. -/

namespace PT
open Spec

/-- A method of a process makes exactly the request its name says, for this process and with the arguments of the caller, and gives back the answer of the
kernel: an error is raised if and only if the kernel refuses. Where nothing is to be asked nothing is. -/
theorem C140_request (K : Kern) (fuel : Nat) {s : DSt} {o : Nat} (ho : o < s.next) {op : Op} (h : Acts o op) :
    match theRequest (s.heap o).isAttached (s.heap o).running (s.heap o).pid op with
    | some c => (runOp K fuel op s).2.log = s.log ++ [⟨c, K s.log c, s.dict⟩] ∧ Answers op (K s.log c) (runOp K fuel op s).1
    | none => (runOp K fuel op s).2.log = s.log ∧ (runOp K fuel op s).1 = .ok () := by
  cases h with
  | attach =>
    cases ha : (s.heap o).isAttached with
    | true => simp [theRequest, runOp, onObj, ho, void, procAttach, ha, Py.bind, Py.pure]
    | false =>
      simp only [theRequest, runOp, onObj, ho, void, procAttach, ha, Py.bind, Py.pure, Bool.false_eq_true, if_false, if_true, ptraceCall, sysc, updProc, setProc]
      cases hr : K s.log (.attach o (s.heap o).pid) <;> simp [Py.pure, Py.raise, Answers]
  | detach =>
    cases ha : (s.heap o).isAttached with
    | false => simp [theRequest, runOp, onObj, ho, void, detach, ha, Py.bind, Py.pure]
    | true =>
      cases hru : (s.heap o).running with
      | false => simp [theRequest, runOp, onObj, ho, void, detach, ha, hru, Py.bind, Py.pure, updProc, setProc, deleteProcess]
      | true =>
        simp only [theRequest, runOp, onObj, ho, void, detach, ha, hru, Py.bind, Py.pure, if_true, ptraceCall, sysc, updProc, setProc, deleteProcess, Bool.and_self]
        cases hr : K s.log (.detach o (s.heap o).pid) <;> simp [Py.pure, Py.raise, Answers]
  | cont n =>
    simp only [theRequest, show (if n = 5 then 0 else n) = filterSignal n from rfl, runOp, onObj, ho, void, procCont, Py.bind, Py.pure, if_true, ptraceCall, sysc, updProc, setProc]
    cases hr : K s.log (.cont o (s.heap o).pid (filterSignal n)) <;> simp [Py.pure, Py.raise, Answers]
  | syscall n =>
    simp only [theRequest, show (if n = 5 then 0 else n) = filterSignal n from rfl, runOp, onObj, ho, void, procSyscall, Py.bind, Py.pure, if_true, ptraceCall, sysc, updProc, setProc]
    cases hr : K s.log (.syscall o (s.heap o).pid (filterSignal n)) <;> simp [Py.pure, Py.raise, Answers]
  | singleStep =>
    simp only [theRequest, runOp, onObj, ho, void, procSingleStep, Py.bind, Py.pure, if_true, ptraceCall, sysc]
    cases hr : K s.log (.singlestep o (s.heap o).pid) <;> simp [Py.pure, Py.raise, Answers]
  | kill n =>
    simp only [theRequest, runOp, onObj, ho, void, procKill, Py.bind, Py.pure, if_true, osCall, sysc]
    cases hr : K s.log (.kill o (s.heap o).pid n) <;> simp [Py.pure, Py.raise, Answers]
  | setoptions b =>
    simp only [theRequest, runOp, onObj, ho, void, procSetoptions, Py.bind, Py.pure, if_true, ptraceCall, sysc]
    cases hr : K s.log (.setoptions o (s.heap o).pid b) <;> simp [Py.pure, Py.raise, Answers]

/-- Did the call succeed? -/
def succeeded (r : Except Exc Unit × DSt) : Bool := match r.1 with
  | .ok _ => true
  | .error _ => false

/-- And the objects say so: a process that was let run is not stopped, one that was attached is attached, one that was let go is not and has left the debugger
if the kernel agreed; nothing else changes, neither of this process nor of others. -/
theorem C140_objects (K : Kern) (fuel : Nat) {s : DSt} {o : Nat} (ho : o < s.next) {op : Op} (h : Acts o op) :
    (runOp K fuel op s).2.heap o = afterwards op (succeeded (runOp K fuel op s)) (s.heap o) ∧
    (∀ i, i ≠ o → (runOp K fuel op s).2.heap i = s.heap i) ∧
    (runOp K fuel op s).2.list = (if op = .detach o ∧ (s.heap o).isAttached ∧ succeeded (runOp K fuel op s) then s.list.erase o else s.list) ∧
    (runOp K fuel op s).2.dict = (if op = .detach o ∧ (s.heap o).isAttached ∧ succeeded (runOp K fuel op s) then dictDel s.dict (s.heap o).pid else s.dict) ∧
    (runOp K fuel op s).2.options = s.options := by
  cases h with
  | attach =>
    cases ha : (s.heap o).isAttached with
    | true =>
      simp [runOp, onObj, ho, void, procAttach, ha, Py.bind, Py.pure, afterwards]
      rw [← ha]
    | false =>
      simp only [runOp, onObj, ho, void, procAttach, ha, Py.bind, Py.pure, Bool.false_eq_true, if_false, if_true, ptraceCall, sysc, updProc, setProc]
      cases hr : K s.log (.attach o (s.heap o).pid) <;> simp +contextual [Py.pure, Py.raise, afterwards, succeeded] <;> rw [← ha]
  | detach =>
    cases ha : (s.heap o).isAttached with
    | false =>
      simp [runOp, onObj, ho, void, detach, ha, Py.bind, Py.pure, afterwards]
      rw [← ha]
    | true =>
      cases hru : (s.heap o).running with
      | false => simp +contextual [runOp, onObj, ho, void, detach, ha, hru, Py.bind, Py.pure, updProc, setProc, deleteProcess, afterwards, succeeded]
      | true =>
        simp only [runOp, onObj, ho, void, detach, ha, hru, Py.bind, Py.pure, if_true, ptraceCall, sysc, updProc, setProc, deleteProcess]
        cases hr : K s.log (.detach o (s.heap o).pid) <;> simp +contextual [Py.pure, Py.raise, afterwards, succeeded, hru]
  | cont n =>
    simp only [runOp, onObj, ho, void, procCont, Py.bind, Py.pure, if_true, ptraceCall, sysc, updProc, setProc]
    cases hr : K s.log (.cont o (s.heap o).pid (filterSignal n)) <;> simp +contextual [Py.pure, Py.raise, afterwards, succeeded, letsRun]
  | syscall n =>
    simp only [runOp, onObj, ho, void, procSyscall, Py.bind, Py.pure, if_true, ptraceCall, sysc, updProc, setProc]
    cases hr : K s.log (.syscall o (s.heap o).pid (filterSignal n)) <;> simp +contextual [Py.pure, Py.raise, afterwards, succeeded, letsRun]
  | singleStep =>
    simp only [runOp, onObj, ho, void, procSingleStep, Py.bind, Py.pure, if_true, ptraceCall, sysc]
    cases hr : K s.log (.singlestep o (s.heap o).pid) <;> simp [Py.pure, Py.raise, afterwards, succeeded, letsRun]
  | kill n =>
    simp only [runOp, onObj, ho, void, procKill, Py.bind, Py.pure, if_true, osCall, sysc]
    cases hr : K s.log (.kill o (s.heap o).pid n) <;> simp [Py.pure, Py.raise, afterwards, succeeded, letsRun]
  | setoptions b =>
    simp only [runOp, onObj, ho, void, procSetoptions, Py.bind, Py.pure, if_true, ptraceCall, sysc]
    cases hr : K s.log (.setoptions o (s.heap o).pid b) <;> simp [Py.pure, Py.raise, afterwards, succeeded, letsRun]

/-! ## examples -/

/-- A kernel where processes stop by SIGSTOP, and which refuses to let go of one. -/
def holdingKern : Kern := fun _ c => match c with
  | .waitpid (some pid) _ _ => .ok pid 0x137f
  | .detach _ _ => .err 3
  | _ => .ok 0 0

/-- The debugger with process 7 (object 0) and process 8 (object 1). -/
def heldTwo : DSt := runOps holdingKern 5 [.addProcess 7 false none false, .addProcess 8 false none false] newDebugger

example : (runOp holdingKern 0 (.cont 1 10) heldTwo).2.log = heldTwo.log ++ [⟨.cont 1 8 10, .ok 0 0, heldTwo.dict⟩] :=
  (C140_request holdingKern 0 (s := heldTwo) (o := 1) (by decide +kernel) (.cont 1 10)).1

example : ((runOp holdingKern 0 (.cont 1 10) heldTwo).2.heap 1).isStopped = false ∧ ((runOp holdingKern 0 (.cont 1 10) heldTwo).2.heap 0).isStopped = true := by
  obtain ⟨h1, h2, -⟩ := C140_objects holdingKern 0 (s := heldTwo) (o := 1) (by decide +kernel) (.cont 1 10)
  rw [h1, h2 0 (by decide)]
  decide +kernel

/-- It is not so that a process the kernel does not let go can be let go later: after the error the object says that it is not attached, the debugger still has
it, and another `detach` asks for nothing. -/
theorem C140_again_refuted : Reach holdingKern heldTwo ∧ (runOp holdingKern 0 (.detach 0) heldTwo).1 = .error (.ptrace (some 3)) ∧
    ((runOp holdingKern 0 (.detach 0) heldTwo).2.heap 0).isAttached = false ∧ 0 ∈ (runOp holdingKern 0 (.detach 0) heldTwo).2.list ∧
    (runOp holdingKern 0 (.detach 0) (runOp holdingKern 0 (.detach 0) heldTwo).2).1 = .ok () ∧
    (runOp holdingKern 0 (.detach 0) (runOp holdingKern 0 (.detach 0) heldTwo).2).2.log = (runOp holdingKern 0 (.detach 0) heldTwo).2.log := by
  refine ⟨.call (.call .new 5 (.addProcess 7 false none false) (show (7 : Nat) ≠ 0 by decide)) 5 (.addProcess 8 false none false) (show (8 : Nat) ≠ 0 by decide),
    by rfl, by decide +kernel, by decide +kernel, by rfl, by decide +kernel⟩

end PT
