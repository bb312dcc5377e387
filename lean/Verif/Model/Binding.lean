import Verif.Model.Ctypes

/-
Model of `ptrace()`, `_peek` and `_poke` (`ptrace/binding/func.py:131-197`) with both bindings: `libc.ptrace` through ctypes
(`ptrace/ctypes_libc.py:11`, `use_errno=True`) and the C extension (`cptrace/cptrace.c:15-73`).

The kernel answers a request with an error or with a value. The C library's wrapper turns an error into the result -1 and sets
`errno`; after a successful peek glibc sets `errno` to 0, other libraries (musl) leave it alone.
The C extension is modelled on 64-bit machines only (on 32-bit machines its argument parser writes a `long long` into a `long`).
-/

namespace PT

/-- A request to the kernel. -/
structure PtraceReq where
  command : Nat
  pid : Nat
  arg1 : Nat
  arg2 : Nat
  deriving DecidableEq, Repr

/-- The answer of the kernel. -/
inductive PtraceReply where
  | error (errno : Nat)
  | ok (value : Nat)
  deriving DecidableEq, Repr

/-- State: `errno` of C, the copy of it that ctypes keeps (`get_errno`), and the requests made, last first. -/
structure BindSt where
  errno : Nat
  copy : Nat
  calls : List PtraceReq
  deriving DecidableEq, Repr

/-- The machine below: word size, what the C library does with `errno` after a successful peek, and the kernel. -/
structure BindEnv where
  arch : Arch
  resets : Bool
  kernel : List PtraceReq → PtraceReq → PtraceReply

/-- `PTRACE_PEEKTEXT`, `PTRACE_PEEKDATA`, `PTRACE_PEEKUSER` (`func.py:44-46`). -/
def isPeek (command : Nat) : Bool := command == 1 || command == 2 || command == 3

/-- Largest unsigned long, that is `(unsigned long)-1`. -/
def BindEnv.minusOne (m : BindEnv) : Nat := 2 ^ (8 * m.arch.W) - 1

/-- The C library's `ptrace()`: the result as `unsigned long`, and `errno`. -/
def libcPtrace (m : BindEnv) (req : PtraceReq) (s : BindSt) : Nat × BindSt :=
  match m.kernel s.calls req with
  | .error e => (m.minusOne, { s with errno := e, calls := req :: s.calls })
  | .ok v => (v, { s with errno := if isPeek req.command && m.resets then 0 else s.errno, calls := req :: s.calls })

/-- A foreign call of ctypes with `use_errno=True`: `errno` and ctypes' copy are exchanged before and after it. Arguments are
`c_ulong`: converted modulo the word size. -/
def ctypesPtrace (m : BindEnv) (command pid : Nat) (arg1 arg2 : Int) (s : BindSt) : Nat × BindSt :=
  let word (v : Int) : Nat := (v % 2 ^ (8 * m.arch.W)).toNat
  let r := libcPtrace m ⟨command, pid, word arg1, word arg2⟩ { s with errno := s.copy, copy := s.errno }
  (r.1, { r.2 with errno := r.2.copy, copy := r.2.errno })

/-- `cptrace.ptrace` (`cptrace.c:15-73`). The format `L` refuses what does not fit a `long long` (`OverflowError`). -/
def cptracePtrace (m : BindEnv) (command pid : Nat) (arg1 arg2 : Int) (checkErrno : Bool) : Py BindSt Nat := fun s =>
  if ¬ (-2 ^ 63 ≤ arg1 ∧ arg1 < 2 ^ 63 ∧ -2 ^ 63 ≤ arg2 ∧ arg2 < 2 ^ 63) then (.error .overflow, s)
  else
    let word (v : Int) : Nat := (v % 2 ^ 64).toNat
    let r := libcPtrace m ⟨command, pid, word arg1, word arg2⟩ { s with errno := 0 }
    if r.1 = m.minusOne ∧ (checkErrno = false ∨ r.2.errno ≠ 0) then (.error .value, r.2) else (.ok r.1, r.2)

/-- `ptrace` (`func.py:147-169`). -/
def ptrace (m : BindEnv) (hasCptrace : Bool) (command pid : Nat) (arg1 arg2 : Int) (checkErrno : Bool) : Py BindSt Nat := fun s =>
  if hasCptrace then
    match cptracePtrace m command pid arg1 arg2 checkErrno { s with copy := 0 } with
    | (.error .value, s') => (.error (.ptrace (some s'.copy)), s')
    | r => r
  else
    let r := ctypesPtrace m command pid arg1 arg2 s
    if r.1 = m.minusOne ∧ (checkErrno = false ∨ r.2.copy ≠ 0) then (.error (.ptrace (some r.2.copy)), r.2)
    else (.ok r.1, r.2)

/-- `_peek` (`func.py:184-189`). -/
def peekWord (m : BindEnv) (hasCptrace : Bool) (command pid address : Nat) : Py BindSt Nat :=
  if address % m.arch.W ≠ 0 then Py.raise (.ptrace none) else ptrace m hasCptrace command pid address 0 true

/-- `_poke` (`func.py:192-197`). -/
def pokeWord (m : BindEnv) (hasCptrace : Bool) (command pid address word : Nat) : Py BindSt Unit :=
  if address % m.arch.W ≠ 0 then Py.raise (.ptrace none)
  else Py.bind (ptrace m hasCptrace command pid address word false) fun _ => Py.pure ()

end PT
