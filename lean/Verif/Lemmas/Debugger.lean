import Verif.Model.Debugger
import Verif.Lemmas.Dict
import Mathlib.Data.Int.Bitwise

/-!
Every operation of the debugger is a sequence of a few atomic steps. Invariants are then proved step
by step (`Lemmas/Debugger2`).
-/

namespace PT

/-- Labels of the atomic steps. -/
inductive Act where
  /-- a logged call that changes nothing else -/
  | call (c : Call)
  /-- `detach` whose request succeeds: the object is unregistered -/
  | detachRun (o : Nat)
  /-- `detach` of an object that is not running: no request, the object is unregistered -/
  | detachDead (o : Nat)
  /-- `detach` whose request fails: the object stays registered -/
  | detachFail (o : Nat)
  /-- `running = False` -/
  | stopRun (o : Nat)
  /-- `is_attached = False` in `addProcess` -/
  | unattach (o : Nat)
  /-- `is_stopped = b` -/
  | stopped (o : Nat) (b : Bool)
  /-- change of the syscall state -/
  | sys (o : Nat)
  /-- a new object is created and registered -/
  | add (o pid : Nat) (isAttached : Bool) (parent : Option Nat) (isThread : Bool)
  /-- option bits are added -/
  | options (bits : Nat)
  /-- `deleteProcess` called by the user -/
  | delete (o : Nat)
  /-- `attach` called by the user on an object that is not attached -/
  | reattach (o : Nat)

/-- What is known about a plain logged call when it is made. -/
def CallOK (s : DSt) : Call → Prop
  | .attach _ _ => False
  | .detach _ _ => False
  | .cont o pid signum => pid = (s.heap o).pid ∧ signum ≠ SIGTRAP
  | .syscall o pid signum => pid = (s.heap o).pid ∧ signum ≠ SIGTRAP
  | .singlestep o pid => pid = (s.heap o).pid
  | .kill o pid _ => pid = (s.heap o).pid
  | .setoptions o pid _ => pid = (s.heap o).pid
  | .geteventmsg o pid => pid = (s.heap o).pid
  | .waitpid none _ wall => wall = false
  | .waitpid (some pid) _ wall => ∃ o, dictGet s.dict pid = some o ∧ wall = (s.heap o).isThread
  | .sleep => True
  | .display o pid => pid = (s.heap o).pid
  | .inspect o pid => pid = (s.heap o).pid

/-- Log one more call. -/
def logCall (K : Kern) (c : Call) (s : DSt) : DSt :=
  { s with log := s.log ++ [⟨c, K s.log c, s.dict⟩] }

/-- Unregister an object. -/
def unreg (o : Nat) (s : DSt) : DSt :=
  { s with
    dict := dictDel s.dict (s.heap o).pid
    list := s.list.erase o }

/-- The atomic steps. -/
inductive Step (K : Kern) : Act → DSt → DSt → Prop where
  | call {s} (c : Call) (h : CallOK s c) : Step K (.call c) s (logCall K c s)
  | attachFail {s} (o pid : Nat) (h : ∀ v st, K s.log (.attach o pid) ≠ .ok v st) :
      Step K (.call (.attach o pid)) s (logCall K (.attach o pid) s)
  | detachRun {s} (o : Nat) {v st} (ha : (s.heap o).isAttached = true) (hr : (s.heap o).running = true)
      (hk : K s.log (.detach o (s.heap o).pid) = .ok v st) :
      Step K (.detachRun o) s
        (unreg o (logCall K (.detach o (s.heap o).pid)
          (setProc s o { s.heap o with isAttached := false })))
  | detachDead {s} (o : Nat) (ha : (s.heap o).isAttached = true) (hr : (s.heap o).running = false) :
      Step K (.detachDead o) s (unreg o (setProc s o { s.heap o with isAttached := false }))
  | detachFail {s} (o : Nat) (ha : (s.heap o).isAttached = true) (hr : (s.heap o).running = true)
      (hk : ∀ v st, K s.log (.detach o (s.heap o).pid) ≠ .ok v st) :
      Step K (.detachFail o) s
        (logCall K (.detach o (s.heap o).pid) (setProc s o { s.heap o with isAttached := false }))
  | stopRun {s} (o : Nat) : Step K (.stopRun o) s (setProc s o { s.heap o with running := false })
  | unattach {s} (o : Nat) : Step K (.unattach o) s (setProc s o { s.heap o with isAttached := false })
  | stopped {s} (o : Nat) (b : Bool) : Step K (.stopped o b) s (setProc s o { s.heap o with isStopped := b })
  | sys {s} (o : Nat) (ss : SysState) : Step K (.sys o) s (setProc s o { s.heap o with ss := ss })
  | addAttached {s} (pid : Nat) (parent : Option Nat) (isThread : Bool) (h : dictHas s.dict pid = false) :
      Step K (.add s.next pid true parent isThread) s
        { setProc s s.next (freshProc pid true parent isThread) with
          next := s.next + 1
          dict := dictSet s.dict pid s.next
          list := s.list ++ [s.next] }
  | addAttach {s} (pid : Nat) (parent : Option Nat) (isThread : Bool) (h : dictHas s.dict pid = false) {v st}
      (hk : K s.log (.attach s.next pid) = .ok v st) :
      Step K (.add s.next pid false parent isThread) s
        { setProc (logCall K (.attach s.next pid) s) s.next (freshProc pid false parent isThread) with
          next := s.next + 1
          dict := dictSet s.dict pid s.next
          list := s.list ++ [s.next] }
  | options {s} (bits : Nat) (a b c d : Bool) : Step K (.options bits) s
      { s with
        options := s.options ||| bits
        traceFork := a
        traceExec := b
        traceClone := c
        useSysgood := d }
  | delete {s} (o : Nat) : Step K (.delete o) s (unreg o s)
  | reattach {s} (o : Nat) {v st} (ha : (s.heap o).isAttached = false)
      (hk : K s.log (.attach o (s.heap o).pid) = .ok v st) : Step K (.reattach o) s
      (setProc (logCall K (.attach o (s.heap o).pid) s) o { s.heap o with isAttached := true })

/-- Sequences of steps whose labels satisfy `P` (in the state where they start). -/
inductive Steps (K : Kern) (P : DSt → Act → Prop) : DSt → DSt → Prop where
  | refl (s) : Steps K P s s
  | step {s t u} (a : Act) (h : Steps K P s t) (hp : P t a) (hs : Step K a t u) : Steps K P s u

namespace Steps
variable {K : Kern} {P Q : DSt → Act → Prop} {s t u : DSt}

theorem one {a : Act} (hp : P s a) (hs : Step K a s t) : Steps K P s t := .step a (.refl s) hp hs

theorem trans (h1 : Steps K P s t) (h2 : Steps K P t u) : Steps K P s u := by
  induction h2 with
  | refl => exact h1
  | step a _ hp hs ih => exact .step a ih hp hs

theorem mono (hPQ : ∀ s a, P s a → Q s a) (h : Steps K P s t) : Steps K Q s t := by
  induction h with
  | refl => exact .refl _
  | step a _ hp hs ih => exact .step a ih (hPQ _ _ hp) hs

/-- An invariant of the steps is an invariant of the sequence. -/
theorem invariant {I : DSt → Prop} (hI : ∀ s a t, P s a → Step K a s t → I s → I t)
    (h : Steps K P s t) (hs : I s) : I t := by
  induction h with
  | refl => exact hs
  | step a _ hp hst ih => exact hI _ a _ hp hst ih

/-- A preorder containing the steps contains the sequence. -/
theorem relation {R : DSt → DSt → Prop} (hr : ∀ s, R s s) (ht : ∀ {s t u}, R s t → R t u → R s u)
    (hR : ∀ s a t, P s a → Step K a s t → R s t) (h : Steps K P s t) : R s t := by
  induction h with
  | refl => exact hr _
  | step a _ hp hst ih => exact ht ih (hR _ a _ hp hst)

end Steps

/-- The kernel never reports 0 as the pid of a new process. -/
def NoZero (K : Kern) : Prop := ∀ log o pid st, K log (.geteventmsg o pid) ≠ .ok 0 st

/-- What is asked of a sequence of steps: the labels allowed in each state, an invariant these steps
preserve, and whether pid 0 (waiting for any child) may occur. -/
structure Rules (K : Kern) where
  P : DSt → Act → Prop
  I : DSt → Prop
  Z : Prop
  stable : ∀ s a t, P s a → Step K a s t → I s → I t
  noZero : NoZero K ∨ Z

/-- Rules without invariant, pid 0 allowed. -/
def Rules.plain (K : Kern) (P : DSt → Act → Prop) : Rules K :=
  ⟨P, fun _ => True, True, fun _ _ _ _ _ _ => trivial, Or.inr trivial⟩

theorem Rules.keep {K : Kern} (S : Rules K) {s t : DSt} (h : Steps K S.P s t) (hI : S.I s) : S.I t :=
  h.invariant S.stable hI

/-- `m` only makes steps allowed by the rules, whether it returns or raises. -/
def Sat {K : Kern} (S : Rules K) {α : Type} (m : Py DSt α) : Prop := ∀ s, S.I s → Steps K S.P s (m s).2

namespace Sat
variable {K : Kern} {S : Rules K} {α β : Type}

theorem pure (a : α) : Sat S (Py.pure a : Py DSt α) := fun s _ => .refl s
theorem raise (e : Exc) : Sat S (Py.raise e : Py DSt α) := fun s _ => .refl s

theorem bind {m : Py DSt α} {f : α → Py DSt β} (hm : Sat S m) (hf : ∀ a, Sat S (f a)) :
    Sat S (Py.bind m f) := by
  intro s hI
  have h1 := hm s hI
  unfold Py.bind
  rcases hms : m s with ⟨r, s'⟩
  rw [hms] at h1
  cases r with
  | ok a => exact h1.trans (hf a s' (S.keep h1 hI))
  | error e => exact h1

theorem ite {c : Prop} [Decidable c] {m n : Py DSt α} (hm : c → Sat S m) (hn : ¬ c → Sat S n) :
    Sat S (if c then m else n) := by
  by_cases h : c
  · rw [if_pos h]; exact hm h
  · rw [if_neg h]; exact hn h

end Sat

section
variable {K : Kern} {S : Rules K} {α : Type}

theorem sysc_run (c : Call) (s : DSt) : sysc K c s = (.ok (K s.log c), logCall K c s) := rfl

/-- Value of a `ptrace` request. -/
def ptraceRes : Reply → Except Exc Nat
  | .ok v _ => .ok v
  | .err e => .error (.ptrace (some e))
  | .interrupt => .error .interrupt

/-- Value of an `os` call. -/
def osRes : Reply → Except Exc (Nat × Int)
  | .ok v st => .ok (v, st)
  | .err e => .error (.os e)
  | .interrupt => .error .interrupt

theorem ptraceCall_run (c : Call) (s : DSt) : ptraceCall K c s = (ptraceRes (K s.log c), logCall K c s) := by
  unfold ptraceCall Py.bind
  rw [sysc_run]
  cases K s.log c <;> rfl

theorem osCall_run (c : Call) (s : DSt) : osCall K c s = (osRes (K s.log c), logCall K c s) := by
  unfold osCall Py.bind
  rw [sysc_run]
  cases K s.log c <;> rfl

theorem ptraceRes_ok {r : Reply} {v : Nat} (h : ptraceRes r = .ok v) : ∃ st, r = .ok v st := by
  cases r with
  | ok a b => injection h with h; exact ⟨b, by rw [h]⟩
  | err e => cases h
  | interrupt => cases h

theorem ptraceRes_err {r : Reply} {e : Exc} (h : ptraceRes r = .error e) : ∀ v st, r ≠ .ok v st := by
  intro v st hr
  rw [hr] at h
  cases h

/-- The exact behaviour of `detach`. -/
theorem detach_cases (o : Nat) (s : DSt) :
    ((s.heap o).isAttached = false ∧ detach K o s = (.ok (), s)) ∨
    ((s.heap o).isAttached = true ∧ (s.heap o).running = false ∧
      detach K o s = (.ok (), unreg o (setProc s o { s.heap o with isAttached := false }))) ∨
    ((s.heap o).isAttached = true ∧ (s.heap o).running = true ∧
      (∃ v st, K s.log (.detach o (s.heap o).pid) = .ok v st) ∧
      detach K o s = (.ok (), unreg o (logCall K (.detach o (s.heap o).pid)
          (setProc s o { s.heap o with isAttached := false })))) ∨
    ((s.heap o).isAttached = true ∧ (s.heap o).running = true ∧
      ∃ e, ptraceRes (K s.log (.detach o (s.heap o).pid)) = .error e ∧
      detach K o s = (.error e, logCall K (.detach o (s.heap o).pid)
          (setProc s o { s.heap o with isAttached := false }))) := by
  by_cases ha : (s.heap o).isAttached = true
  · right
    by_cases hr : (s.heap o).running = true
    · right
      have hlog : (setProc s o { s.heap o with isAttached := false }).log = s.log := rfl
      have hrun := ptraceCall_run (K := K) (.detach o (s.heap o).pid)
        (setProc s o { s.heap o with isAttached := false })
      rw [hlog] at hrun
      cases hres : ptraceRes (K s.log (.detach o (s.heap o).pid)) with
      | ok v =>
        left
        obtain ⟨st, hst⟩ := ptraceRes_ok hres
        refine ⟨ha, hr, ⟨v, st, hst⟩, ?_⟩
        rw [hres] at hrun
        unfold detach
        rw [if_pos ha, if_pos hr]
        simp only [Py.bind, updProc, hrun]
        rfl
      | error e =>
        right
        refine ⟨ha, hr, e, rfl, ?_⟩
        rw [hres] at hrun
        unfold detach
        rw [if_pos ha, if_pos hr]
        simp only [Py.bind, updProc, hrun]
    · left
      have hr' : (s.heap o).running = false := by simpa using hr
      refine ⟨ha, hr', ?_⟩
      unfold detach
      rw [if_pos ha, if_neg hr]
      rfl
  · left
    refine ⟨by simpa using ha, ?_⟩
    unfold detach
    rw [if_neg ha]

theorem detach_sat (o : Nat) (h0 : ∀ s, S.P s (.detachDead o)) (h1 : ∀ s, S.P s (.detachRun o))
    (h2 : ∀ s, S.P s (.detachFail o)) : Sat S (detach K o) := by
  intro s _
  rcases detach_cases (K := K) o s with ⟨_, h⟩ | ⟨ha, hr, h⟩ | ⟨ha, hr, ⟨v, st, hk⟩, h⟩ | ⟨ha, hr, e, he, h⟩
  · rw [h]; exact .refl s
  · rw [h]; exact .one (h0 s) (.detachDead o ha hr)
  · rw [h]; exact .one (h1 s) (.detachRun o ha hr hk)
  · rw [h]; exact .one (h2 s) (.detachFail o ha hr (ptraceRes_err he))

theorem notRunning_sat (o : Nat) (h0 : ∀ s, S.P s (.stopRun o)) (h1 : ∀ s, S.P s (.detachDead o)) :
    Sat S (notRunning K o) := by
  intro s _
  have h : notRunning K o s = detach K o (setProc s o { s.heap o with running := false }) := rfl
  have hh : (setProc s o { s.heap o with running := false }).heap o = { s.heap o with running := false } := by
    simp [setProc]
  rw [h]
  refine Steps.trans (.one (h0 s) (.stopRun o)) ?_
  rcases detach_cases (K := K) o (setProc s o { s.heap o with running := false }) with
    ⟨_, h⟩ | ⟨ha, hr, h⟩ | ⟨ha, hr, _⟩ | ⟨ha, hr, _⟩
  · rw [h]; exact .refl _
  · rw [h]; exact .one (h1 _) (.detachDead o ha hr)
  · rw [hh] at hr; cases hr
  · rw [hh] at hr; cases hr

theorem ptraceCall_sat {c : Call} (h : ∀ s, S.P s (.call c)) (s : DSt) (hc : CallOK s c) :
    Steps K S.P s (ptraceCall K c s).2 := by
  rw [ptraceCall_run]; exact .one (h s) (.call c hc)

theorem osCall_sat {c : Call} (h : ∀ s, S.P s (.call c)) (s : DSt) (hc : CallOK s c) :
    Steps K S.P s (osCall K c s).2 := by
  rw [osCall_run]; exact .one (h s) (.call c hc)

/-- Sequencing at a given state. -/
theorem steps_bind {β : Type} {m : Py DSt α} {f : α → Py DSt β} {s : DSt} (hI : S.I s)
    (hm : Steps K S.P s (m s).2)
    (hf : ∀ a s', m s = (.ok a, s') → S.I s' → Steps K S.P s' (f a s').2) : Steps K S.P s (Py.bind m f s).2 := by
  unfold Py.bind
  rcases hms : m s with ⟨r, s'⟩
  rw [hms] at hm
  cases r with
  | ok a => exact hm.trans (hf a s' hms (S.keep hm hI))
  | error e => exact hm

theorem filterSignal_ne (n : Nat) : filterSignal n ≠ SIGTRAP := by
  unfold filterSignal
  by_cases h : n = SIGTRAP
  · rw [if_pos h]; decide
  · rw [if_neg h]; exact h

theorem procCont_sat (o signum : Nat) (h : ∀ s pid, S.P s (.call (.cont o pid (filterSignal signum))))
    (h2 : ∀ s, S.P s (.stopped o false)) : Sat S (procCont K o signum) := by
  intro s hI
  exact steps_bind hI (ptraceCall_sat (fun t => h t _) s ⟨rfl, filterSignal_ne _⟩)
    fun _ s' _ _ => .one (h2 s') (.stopped o false)

theorem procSyscall_sat (o signum : Nat) (h : ∀ s pid, S.P s (.call (.syscall o pid (filterSignal signum))))
    (h2 : ∀ s, S.P s (.stopped o false)) : Sat S (procSyscall K o signum) := by
  intro s hI
  exact steps_bind hI (ptraceCall_sat (fun t => h t _) s ⟨rfl, filterSignal_ne _⟩)
    fun _ s' _ _ => .one (h2 s') (.stopped o false)

theorem procSingleStep_sat (o : Nat) (h : ∀ s pid, S.P s (.call (.singlestep o pid))) :
    Sat S (procSingleStep K o) := by
  intro s hI
  exact steps_bind hI (ptraceCall_sat (fun t => h t _) s rfl) fun _ s' _ _ => .refl s'

theorem procKill_sat (o signum : Nat) (h : ∀ s pid, S.P s (.call (.kill o pid signum))) :
    Sat S (procKill K o signum) := by
  intro s hI
  exact steps_bind hI (osCall_sat (fun t => h t _) s rfl) fun _ s' _ _ => .refl s'

theorem procSetoptions_sat (o options : Nat) (h : ∀ s pid, S.P s (.call (.setoptions o pid options))) :
    Sat S (procSetoptions K o options) := by
  intro s hI
  exact steps_bind hI (ptraceCall_sat (fun t => h t _) s rfl) fun _ s' _ _ => .refl s'

theorem eventDisplay_sat (o : Nat) (h : ∀ s pid, S.P s (.call (.display o pid))) :
    Sat S (eventDisplay K o) := by
  intro s hI
  exact steps_bind hI (ptraceCall_sat (fun t => h t _) s rfl) fun _ s' _ _ => .refl s'

end

/-! ### waiting and adding -/

/-- Labels of the steps made while waiting for a process event. -/
def waitActs (Z : Prop) : Act → Prop
  | .call (.waitpid none _ _) => Z
  | .call (.waitpid (some _) _ _) => True
  | .call (.geteventmsg _ _) => True
  | .call (.setoptions _ _ _) => True
  | .call (.display _ _) => True
  | .detachDead _ => True
  | .stopRun _ => True
  | .unattach _ => True
  | .stopped _ true => True
  | .add _ pid true _ _ => pid ≠ 0 ∨ Z
  | _ => False

section
variable {K : Kern} {S : Rules K} {α : Type}

/-- `newProc` and `register` together are one step. -/
theorem addStart_steps (pid : Nat) (isAttached : Bool) (parent : Option Nat) (isThread : Bool) (s : DSt)
    (hd : dictHas s.dict pid = false) (h1 : ∀ s o, S.P s (.add o pid isAttached parent isThread))
    (h2 : isAttached = false → ∀ s o, S.P s (.call (.attach o pid))) :
    Steps K S.P s (Py.bind (newProc K pid isAttached parent isThread) (fun o =>
      Py.bind (register pid o) fun _ => Py.pure o) s).2 := by
  cases isAttached with
  | true =>
    have : (Py.bind (newProc K pid true parent isThread) (fun o =>
      Py.bind (register pid o) fun _ => Py.pure o) s).2 =
        { setProc s s.next (freshProc pid true parent isThread) with
          next := s.next + 1
          dict := dictSet s.dict pid s.next
          list := s.list ++ [s.next] } := rfl
    rw [this]
    exact .one (h1 s s.next) (.addAttached pid parent isThread hd)
  | false =>
    have hrun := ptraceCall_run (K := K) (.attach s.next pid) s
    cases hr : ptraceRes (K s.log (.attach s.next pid)) with
    | ok v =>
      obtain ⟨st, hst⟩ := ptraceRes_ok hr
      rw [hr] at hrun
      have : (Py.bind (newProc K pid false parent isThread) (fun o =>
        Py.bind (register pid o) fun _ => Py.pure o) s).2 =
          { setProc (logCall K (.attach s.next pid) s) s.next (freshProc pid false parent isThread) with
            next := s.next + 1
            dict := dictSet s.dict pid s.next
            list := s.list ++ [s.next] } := by
        simp only [Py.bind, newProc, hrun, Bool.false_eq_true, if_false]
        rfl
      rw [this]
      exact .one (h1 s s.next) (.addAttach pid parent isThread hd hst)
    | error e =>
      rw [hr] at hrun
      have : (Py.bind (newProc K pid false parent isThread) (fun o =>
        Py.bind (register pid o) fun _ => Py.pure o) s).2 = logCall K (.attach s.next pid) s := by
        simp only [Py.bind, newProc, hrun, Bool.false_eq_true, if_false]
      rw [this]
      exact .one (h2 rfl s s.next) (.attachFail _ _ (ptraceRes_err hr))

theorem py_bind_assoc {β γ : Type} (m : Py DSt α) (f : α → Py DSt β) (g : β → Py DSt γ) :
    Py.bind (Py.bind m f) g = Py.bind m fun a => Py.bind (f a) g := by
  funext s
  unfold Py.bind
  rcases m s with ⟨r, s'⟩
  cases r <;> rfl

theorem addProcessExcept_sat (hw : ∀ s a, waitActs S.Z a → S.P s a) (o : Nat) (e : Exc) :
    Sat S (addProcessExcept K o e) := by
  have gen : ∀ e, Sat S (Py.bind (updProc o fun p => { p with isAttached := false }) fun _ =>
      Py.bind (detach K o) fun _ => (Py.raise e : Py DSt Unit)) := by
    intro e s _
    have hh : (setProc s o { s.heap o with isAttached := false }).heap o =
      { s.heap o with isAttached := false } := by simp [setProc]
    have hd : detach K o (setProc s o { s.heap o with isAttached := false }) =
        (.ok (), setProc s o { s.heap o with isAttached := false }) := by
      unfold detach
      rw [if_neg (by rw [hh]; simp)]
    have : (Py.bind (updProc o fun p => { p with isAttached := false }) (fun _ =>
      Py.bind (detach K o) fun _ => (Py.raise e : Py DSt Unit)) s).2 =
        setProc s o { s.heap o with isAttached := false } := by
      simp only [Py.bind, updProc, hd]
      rfl
    rw [this]
    exact .one (hw s _ (by exact trivial)) (.unattach o)
  unfold addProcessExcept
  split
  · exact Sat.pure _
  · exact eventDisplay_sat _ (fun s _ => hw s _ (by exact trivial))
  · exact gen _

theorem filterEvent_sat (signals : List Nat) (e : Option Event) : Sat S (filterEvent signals e) := by
  unfold filterEvent
  split
  · exact Sat.ite (fun _ => Sat.pure _) (fun _ => Sat.raise _)
  · exact Sat.raise _
  · exact Sat.raise _

theorem addProcess_sat (hw : ∀ s a, waitActs S.Z a → S.P s a) {W : WaitPid} (hW : ∀ p b, p ≠ 0 ∨ S.Z → Sat S (W p b))
    (pid : Nat) (hpid : pid ≠ 0 ∨ S.Z) (isAttached : Bool) (parent : Option Nat) (isThread : Bool)
    (h1 : ∀ s o, S.P s (.add o pid isAttached parent isThread))
    (h2 : isAttached = false → ∀ s o, S.P s (.call (.attach o pid))) :
    Sat S (addProcess K W pid isAttached parent isThread) := by
  intro s hI
  unfold addProcess
  by_cases hd : dictHas s.dict pid = true
  · rw [if_pos hd]; exact .refl s
  · rw [if_neg hd]
    have hd' : dictHas s.dict pid = false := by simpa using hd
    have key := addStart_steps (K := K) (S := S) pid isAttached parent isThread s hd' h1 h2
    have hassoc : Py.bind (newProc K pid isAttached parent isThread) (fun o =>
        Py.bind (register pid o) fun _ =>
        Py.bind (addProcessWait K W o pid) fun _ =>
        Py.bind (addProcessOptions K o) fun _ =>
        Py.pure o) =
      Py.bind (Py.bind (newProc K pid isAttached parent isThread) (fun o =>
        Py.bind (register pid o) fun _ => Py.pure o)) fun o =>
        Py.bind (addProcessWait K W o pid) fun _ =>
        Py.bind (addProcessOptions K o) fun _ =>
        Py.pure o := by
      rw [py_bind_assoc]
      congr 1
    rw [hassoc]
    refine steps_bind hI key fun o s' _ hI' => ?_
    refine Sat.bind ?_ (fun _ => Sat.bind ?_ fun _ => Sat.pure _) s' hI'
    · intro t hIt
      unfold addProcessWait
      have hws : Sat S (waitSignalsPid W [SIGTRAP, SIGSTOP] pid) :=
        Sat.bind (hW _ _ hpid) fun e => filterEvent_sat _ _
      have := hws t hIt
      generalize waitSignalsPid W [SIGTRAP, SIGSTOP] pid t = x at this ⊢
      obtain ⟨r, t'⟩ := x
      cases r with
      | ok a => exact this
      | error e => exact this.trans (addProcessExcept_sat hw o e t' (S.keep this hIt))
    · intro t hIt
      unfold addProcessOptions
      by_cases ho : t.options ≠ 0
      · rw [if_pos ho]; exact procSetoptions_sat o _ (fun s _ => hw s _ (by exact trivial)) t hIt
      · rw [if_neg ho]; exact .refl t

theorem processStatus_sat (hw : ∀ s a, waitActs S.Z a → S.P s a) {W : WaitPid}
    (hW : ∀ p b, p ≠ 0 ∨ S.Z → Sat S (W p b)) (o : Nat) (status : Int) :
    Sat S (processStatus K W o status) := by
  have hn : Sat S (notRunning K o) :=
    notRunning_sat o (fun s => hw s _ (by exact trivial)) (fun s => hw s _ (by exact trivial))
  unfold processStatus
  split
  · exact Sat.bind hn fun _ => Sat.pure _
  · exact Sat.bind hn fun _ => Sat.pure _
  · exact Sat.raise _
  · intro s hI
    unfold ptraceEvent
    split
    · refine steps_bind hI (ptraceCall_sat (fun t => hw t _ (by exact trivial)) s rfl) fun newPid s' hs hI' => ?_
      have hp : newPid ≠ 0 ∨ S.Z := by
        rcases S.noZero with hz | hz
        · left
          intro h0
          rw [ptraceCall_run] at hs
          injection hs with hs _
          obtain ⟨st, hst⟩ := ptraceRes_ok hs
          rw [h0] at hst
          exact hz _ _ _ _ hst
        · exact Or.inr hz
      exact Sat.bind (addProcess_sat hw hW _ hp _ _ _ (fun s o => hw s _ (by exact hp)) (by intro h; cases h))
        (fun _ => Sat.pure _) s' hI'
    · split
      · exact .refl s
      · exact .refl s
  · exact Sat.bind (fun s _ => .one (hw s _ (by exact trivial)) (.stopped o true)) fun _ => Sat.pure _

theorem checkPid_sat (wanted : Nat) (blocking : Bool) (r : Nat × Int) : Sat S (checkPid wanted blocking r) := by
  unfold checkPid
  exact Sat.ite (fun _ => Sat.raise _) (fun _ => Sat.pure _)

theorem waitpidRaw_sat (hw : ∀ s a, waitActs S.Z a → S.P s a) (wanted : Nat) (hwant : wanted ≠ 0 ∨ S.Z)
    (blocking : Bool) : Sat S (waitpidRaw K wanted blocking) := by
  intro s hI
  unfold waitpidRaw
  by_cases h0 : wanted ≠ 0
  · rw [if_pos h0]
    cases hg : dictGet s.dict wanted with
    | none => exact .refl s
    | some o =>
      exact steps_bind hI (osCall_sat (fun t => hw t _ (by exact trivial)) s ⟨o, hg, rfl⟩)
        fun a s' _ hI' => checkPid_sat _ _ a s' hI'
  · rw [if_neg h0]
    have hz : S.Z := hwant.resolve_left h0
    exact steps_bind hI (osCall_sat (fun t => hw t _ (by exact hz)) s rfl)
      fun a s' _ hI' => checkPid_sat _ _ a s' hI'

theorem waitExcept_sat (hw : ∀ s a, waitActs S.Z a → S.P s a) (wanted : Nat) (e : Exc) :
    Sat S (waitExcept K wanted e) := by
  intro s hI
  unfold waitExcept
  split
  · split
    · exact Sat.bind (Sat.bind (notRunning_sat _ (fun s => hw s _ (by exact trivial))
        (fun s => hw s _ (by exact trivial))) fun _ => Sat.pure _) (fun _ => Sat.pure _) s hI
    · exact .refl s
  · exact .refl s

theorem waitReply_sat (hw : ∀ s a, waitActs S.Z a → S.P s a) {W : WaitPid}
    (hW : ∀ p b, p ≠ 0 ∨ S.Z → Sat S (W p b))
    {loop : Py DSt (Option Event)} (hl : Sat S loop) (blocking : Bool) (r : Nat × Int) :
    Sat S (waitReply K W loop blocking r) := by
  intro s hI
  unfold waitReply
  split
  · exact .refl s
  · split
    · exact Sat.bind (processStatus_sat hw hW _ _) (fun _ => Sat.pure _) s hI
    · exact hl s hI

theorem waitEventPid_sat (hw : ∀ s a, waitActs S.Z a → S.P s a) (n : Nat) : ∀ wanted blocking,
    wanted ≠ 0 ∨ S.Z → Sat S (waitEventPid K n wanted blocking) := by
  induction n with
  | zero => intro _ _ _; exact Sat.raise _
  | succ n ih =>
    intro wanted blocking hp s hI
    unfold waitEventPid
    have h1 := waitpidRaw_sat (K := K) hw wanted hp blocking s hI
    generalize waitpidRaw K wanted blocking s = x at h1 ⊢
    obtain ⟨r, s'⟩ := x
    have hI' := S.keep h1 hI
    cases r with
    | ok a => exact h1.trans (waitReply_sat hw ih (ih _ _ hp) _ _ s' hI')
    | error e => exact h1.trans (waitExcept_sat hw _ _ s' hI')

theorem pollPids_sat {W : WaitPid} (hW : ∀ p b, p ≠ 0 ∨ S.Z → Sat S (W p b))
    (pids : List Nat) (hp : ∀ p ∈ pids, p ≠ 0 ∨ S.Z) : Sat S (pollPids W pids) := by
  induction pids with
  | nil => exact Sat.pure _
  | cons p ps ih =>
    refine Sat.bind (hW _ _ (hp p List.mem_cons_self)) fun e => ?_
    cases e with
    | none => exact ih fun q hq => hp q (List.mem_cons_of_mem _ hq)
    | some ev => exact Sat.pure _

theorem waitAny_sat (hw : ∀ s a, waitActs S.Z a → S.P s a) (hsl : ∀ s, S.P s (.call .sleep))
    (hkeys : ∀ s, S.I s → ∀ p ∈ s.dict.map Prod.fst, p ≠ 0 ∨ S.Z) (fuel n : Nat)
    (blocking : Bool) : Sat S (waitAny K fuel n blocking) := by
  induction n with
  | zero => exact Sat.raise _
  | succ n ih =>
    intro s hI
    have hk := hkeys s hI
    unfold waitAny
    split
    · exact .refl s
    · rename_i pid hpid
      exact waitEventPid_sat hw _ _ _ (hk pid (by rw [hpid]; exact List.mem_cons_self)) s hI
    · refine Sat.bind (pollPids_sat (waitEventPid_sat hw fuel) _ hk) (fun e => ?_) s hI
      cases e with
      | some ev => exact Sat.pure _
      | none =>
        refine Sat.ite (fun _ => ?_) (fun _ => Sat.pure _)
        exact Sat.bind (fun t _ => osCall_sat hsl t trivial) fun _ => ih

theorem waitProcessEvent_sat (hw : ∀ s a, waitActs S.Z a → S.P s a) (hsl : ∀ s, S.P s (.call .sleep))
    (hkeys : ∀ s, S.I s → ∀ p ∈ s.dict.map Prod.fst, p ≠ 0 ∨ S.Z) (fuel : Nat)
    (pid : Option Nat) (hp : pid ≠ some 0 ∨ S.Z) (blocking : Bool) : Sat S (waitProcessEvent K fuel pid blocking) := by
  unfold waitProcessEvent
  split
  · refine waitEventPid_sat hw _ _ _ (hp.imp ?_ id)
    intro h h0
    exact h (by rw [h0])
  · exact waitAny_sat hw hsl hkeys _ _ _

theorem waitSignals_sat (hw : ∀ s a, waitActs S.Z a → S.P s a) (hsl : ∀ s, S.P s (.call .sleep))
    (hkeys : ∀ s, S.I s → ∀ p ∈ s.dict.map Prod.fst, p ≠ 0 ∨ S.Z) (fuel : Nat)
    (signals : List Nat) (pid : Option Nat) (hp : pid ≠ some 0 ∨ S.Z) : Sat S (waitSignals K fuel signals pid) :=
  Sat.bind (waitProcessEvent_sat hw hsl hkeys _ _ hp _) fun _ => filterEvent_sat _ _

theorem waitExit_sat (hw : ∀ s a, waitActs S.Z a → S.P s a) (o : Nat)
    (hpid : ∀ s, S.I s → (s.heap o).pid ≠ 0 ∨ S.Z)
    (hc : ∀ s pid signum, S.P s (.call (.cont o pid signum))) (hst : ∀ s, S.P s (.stopped o false)) (fuel n : Nat) :
    Sat S (waitExit K fuel o n) := by
  induction n with
  | zero => exact Sat.raise _
  | succ n ih =>
    intro s hI
    unfold waitExit
    refine Sat.bind (waitEventPid_sat hw _ _ _ (hpid s hI)) (fun e => ?_) s hI
    split
    · exact Sat.pure _
    · refine Sat.bind (Sat.ite (fun _ => ?_) (fun _ => ?_)) fun _ => ih
      · exact procCont_sat o _ (fun s pid => hc s pid _) hst
      · exact procCont_sat o _ (fun s pid => hc s pid _) hst
    · exact Sat.raise _
    · exact Sat.raise _

theorem terminateKill_sat (o : Nat) (hc : ∀ s pid, S.P s (.call (.cont o pid SIGKILL)))
    (hk : ∀ s pid, S.P s (.call (.kill o pid SIGKILL))) (hst : ∀ s, S.P s (.stopped o false)) :
    Sat S (terminateKill K o) := by
  intro s hI
  unfold terminateKill
  have h : Sat S (if (s.heap o).isStopped then procCont K o SIGKILL else procKill K o SIGKILL) :=
    Sat.ite (fun _ => procCont_sat o _ (fun s pid => hc s pid) hst) (fun _ => procKill_sat o _ hk)
  have := h s hI
  generalize (if (s.heap o).isStopped then procCont K o SIGKILL else procKill K o SIGKILL) s = x at this ⊢
  obtain ⟨r, s'⟩ := x
  cases r with
  | ok a => exact this
  | error e =>
    dsimp only
    split
    · exact this
    · exact this

theorem terminate_sat (hw : ∀ s a, waitActs S.Z a → S.P s a) (o : Nat)
    (hpid : ∀ s, S.I s → (s.heap o).pid ≠ 0 ∨ S.Z)
    (hc : ∀ s pid signum, S.P s (.call (.cont o pid signum))) (hst : ∀ s, S.P s (.stopped o false))
    (hk : ∀ s pid, S.P s (.call (.kill o pid SIGKILL))) (fuel : Nat) (wait : Bool) :
    Sat S (terminate K fuel o wait) := by
  intro s hI
  unfold terminate
  split
  · exact .refl s
  · refine Sat.bind (terminateKill_sat o (fun s pid => hc s pid _) hk hst) (fun done => ?_) s hI
    refine Sat.ite (fun _ => Sat.pure _) (fun _ => ?_)
    refine Sat.bind (Sat.ite (fun _ => Sat.pure _) (fun _ => waitExit_sat hw o hpid hc hst _ _)) fun _ => ?_
    exact Sat.bind (notRunning_sat o (fun s => hw s _ (by exact trivial)) (fun s => hw s _ (by exact trivial))) fun _ => Sat.pure _

theorem void_sat {m : Py DSt α} (h : Sat S m) : Sat S (void m) := Sat.bind h fun _ => Sat.pure _

theorem onObj_steps {m : Py DSt α} {o : Nat} {s : DSt} (hI : S.I s) (h : o < s.next → Steps K S.P s (m s).2) :
    Steps K S.P s (onObj o m s).2 := by
  unfold onObj
  by_cases ho : o < s.next
  · rw [if_pos ho]; exact steps_bind hI (h ho) fun _ s' _ _ => .refl s'
  · rw [if_neg ho]; exact .refl s

theorem onObj_sat {m : Py DSt α} (o : Nat) (h : Sat S m) : Sat S (onObj o m) :=
  fun s hI => onObj_steps hI fun _ => h s hI

end

end PT
