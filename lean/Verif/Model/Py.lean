/-
Python primitives shared by all models: bytes, exceptions, effects.
These are not repository code; they model the Python runtime (see DESIGN.md, trusted base).
-/

namespace PT

/-- One byte of a Python `bytes` object. -/
abbrev Byte := Fin 256

/-- A Python `bytes` object. -/
abbrev Bytes := List Byte

/-- Python text (`str`). -/
abbrev Str := List Char

/-- Process events (`ptrace/debugger/process_event.py`, `ptrace/debugger/ptrace_signal.py:57-64`); they
are exceptions and are raised or returned. `proc` is the process object (its index in the model's heap). -/
inductive Event where
  /-- `ProcessExit(process, signum, exitcode)` -/
  | exit (proc : Nat) (signum exitcode : Option Nat)
  /-- `ProcessSignal(signum, process)` -/
  | signal (proc : Nat) (signum : Nat)
  /-- `NewProcessEvent(process)` -/
  | newProcess (proc : Nat)
  /-- `ProcessExecution(process)` -/
  | execution (proc : Nat)
  deriving DecidableEq, Repr

/-- Exceptions that can leave a modelled function.

* `ptrace errno` — `PtraceError` and its subclasses `ProcessError` / `DebuggerError`
  (`ptrace/error.py:55-63`, `ptrace/debugger/process_error.py:4-8`, `debugger.py:16-17`) with its
  `errno` attribute;
* `event` — a raised process event;
* the others are the built-in Python exceptions of the same name;
* `diverge` is not a Python exception: it marks a loop that used up the fuel given to the model. -/
inductive Exc where
  | ptrace (errno : Option Nat)
  | os (errno : Nat)
  | value
  | key
  | index
  | type
  | struct
  | attribute
  | zeroDivision
  | overflow
  | assertion
  | interrupt
  | event (e : Event)
  | diverge
  deriving DecidableEq, Repr

/-- Effectful Python code over a state `σ`: the state is kept when an exception is raised. -/
abbrev Py (σ α : Type) : Type := σ → Except Exc α × σ

namespace Py
variable {σ α β : Type}

@[inline] def pure (a : α) : Py σ α := fun s => (.ok a, s)
@[inline] def bind (m : Py σ α) (f : α → Py σ β) : Py σ β := fun s =>
  match m s with
  | (.ok a, s') => f a s'
  | (.error e, s') => (.error e, s')

instance : Monad (Py σ) where
  pure := Py.pure
  bind := Py.bind

/-- `raise e` -/
def raise (e : Exc) : Py σ α := fun s => (.error e, s)
/-- read the state -/
def get : Py σ σ := fun s => (.ok s, s)
/-- replace the state -/
def set (s' : σ) : Py σ Unit := fun _ => (.ok (), s')
/-- update the state -/
def modify (f : σ → σ) : Py σ Unit := fun s => (.ok (), f s)
/-- `try: m except e: h e` for the exceptions on which `h` answers `some`. -/
def tryCatch (m : Py σ α) (h : Exc → Option (Py σ α)) : Py σ α := fun s =>
  match m s with
  | (.ok a, s') => (.ok a, s')
  | (.error e, s') => match h e with
    | some k => k s'
    | none => (.error e, s')

@[simp] theorem pure_run (a : α) (s : σ) : (Pure.pure a : Py σ α) s = (.ok a, s) := rfl
@[simp] theorem pure_run' (a : α) (s : σ) : (Py.pure a : Py σ α) s = (.ok a, s) := rfl
theorem bind_run (m : Py σ α) (f : α → Py σ β) (s : σ) :
    (m >>= f) s = match m s with
      | (.ok a, s') => f a s'
      | (.error e, s') => (.error e, s') := rfl
@[simp] theorem raise_run (e : Exc) (s : σ) : (raise e : Py σ α) s = (.error e, s) := rfl
@[simp] theorem get_run (s : σ) : (get : Py σ σ) s = (.ok s, s) := rfl
@[simp] theorem set_run (s s' : σ) : (set s' : Py σ Unit) s = (.ok (), s') := rfl
@[simp] theorem modify_run (f : σ → σ) (s : σ) : (modify f : Py σ Unit) s = (.ok (), f s) := rfl

theorem bind_ok {m : Py σ α} {f : α → Py σ β} {s s' : σ} {a : α} (h : m s = (.ok a, s')) :
    (m >>= f) s = f a s' := by rw [bind_run, h]
theorem bind_error {m : Py σ α} {f : α → Py σ β} {s s' : σ} {e : Exc} (h : m s = (.error e, s')) :
    (m >>= f) s = (.error e, s') := by rw [bind_run, h]

end Py

@[simp] theorem except_bind_ok {α β : Type} (a : α) (f : α → Except Exc β) :
    ((Except.ok a : Except Exc α) >>= f) = f a := rfl
@[simp] theorem except_bind_error {α β : Type} (e : Exc) (f : α → Except Exc β) :
    ((Except.error e : Except Exc α) >>= f) = .error e := rfl

/-- Python slice `l[i:j]` for `0 ≤ i ≤ j` (non-negative indexes). -/
def slice {α : Type} (l : List α) (i j : Nat) : List α := (l.take j).drop i

end PT
