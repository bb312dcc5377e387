import Verif.Model.Ctypes
import Verif.Model.Socket

/-
Model of the tracee memory accesses of `/repo/ptrace/debugger/process.py:504-673` (Linux paths:
`HAS_PTRACE_IO` false, `HAS_PROC` true) and of `/repo/ptrace/binding/func.py:147-217`.

The kernel is an arbitrary oracle: every answer may depend on the whole history of requests.
-/

namespace PT

/-- One request made to the kernel about tracee memory. -/
inductive Access where
  | peek (address : Nat)
  | poke (address : Nat) (word : Nat)
  | memOpen
  | memRead (address size : Nat)
  deriving DecidableEq, Repr

/-- Answer of `read()` on `/proc/pid/mem`: an error number, or the number of bytes delivered (cut
to the requested size by the model). -/
inductive MemReply where
  | err (errno : Nat)
  | count (n : Nat)
  deriving DecidableEq, Repr

/-- The host and the kernel's decisions. An error number of 0 means success. Each decision may depend
on all earlier requests (newest first), so a page can become unreadable, the tracee can die, ... -/
structure Kernel where
  arch : Arch
  peekErr : List Access → Nat → Nat
  pokeErr : List Access → Nat → Nat
  openErr : List Access → Nat
  readReply : List Access → Nat → Nat → MemReply

/-- Tracee memory and the part of a `PtraceProcess` object that memory accesses use:
`mapped` is `read_mem_file is not None`, `fallback` is "`self.readBytes` was replaced by
`self._readBytes`" (`process.py:565,583`). -/
structure MemSt where
  mem : Nat → Byte
  log : List Access := []
  memFile : Bool := false
  fallback : Bool := false

/-- The bytes `mem[address], ..., mem[address+n-1]`. -/
def bytesAt (mem : Nat → Byte) (address n : Nat) : Bytes :=
  (List.range n).map fun i => mem (address + i)

/-- Kernel side of PTRACE_POKETEXT: store `data` at `address`. -/
def storeBytes (mem : Nat → Byte) (address : Nat) (data : Bytes) : Nat → Byte := fun x =>
  if address ≤ x then
    match data[x - address]? with
    | some b => b
    | none => mem x
  else mem x

/-- Bytes of a machine word in the order the CPU stores them. -/
def wordBytes (a : Arch) (word : Nat) : Bytes :=
  if a.big then (leBytes a.W word).reverse else leBytes a.W word

/-- Run a pure computation that may raise. -/
def liftE {σ α : Type} (e : Except Exc α) : Py σ α := fun s => (e, s)

/-- `ptrace()` for `check_errno=True` on the result and errno of the C function
(`ptrace/binding/func.py:157-169`, ctypes binding): -1 with errno 0 is not an error. -/
def checkPeek (a : Arch) (result errno : Nat) : Except Exc Nat :=
  if ulong2long a result = -1 then
    if errno ≠ 0 then .error (.ptrace (some errno)) else .ok result
  else .ok result

/-- `_peek` (`ptrace/binding/func.py:184-189`), `ptrace_peektext` (200-201), `readWord`
(`ptrace/debugger/process.py:538-541`). The C function returns -1 (all bits set) on error, the word
with errno 0 otherwise. -/
def readWord (k : Kernel) (address : Nat) : Py MemSt Nat := fun s =>
  if address % k.arch.W ≠ 0 then (.error (.ptrace none), s)
  else
    let errno := k.peekErr s.log address
    let result := if errno ≠ 0 then k.arch.maxUint
                  else readNativeUint k.arch (bytesAt s.mem address k.arch.W)
    (checkPeek k.arch result errno, { s with log := .peek address :: s.log })

/-- `_poke` (`ptrace/binding/func.py:192-197`), `ptrace_poketext` (212-213), `writeWord`
(`ptrace/debugger/process.py:706-710`): a result of -1 is always an error. -/
def writeWord (k : Kernel) (address word : Nat) : Py MemSt Unit := fun s =>
  if address % k.arch.W ≠ 0 then (.error (.ptrace none), s)
  else
    let errno := k.pokeErr s.log address
    let s' := { s with log := .poke address word :: s.log }
    if errno ≠ 0 then (.error (.ptrace (some errno)), s')
    else (.ok (), { s' with mem := storeBytes s.mem address (wordBytes k.arch word) })

/-- The `while size:` loop of `_readBytes` (`ptrace/debugger/process.py:522-536`). -/
def readWords (k : Kernel) (address size : Nat) (data : Bytes) : Py MemSt Bytes :=
  if _h : size = 0 then Py.pure data
  else
    Py.bind (readWord k address) fun word =>
    Py.bind (liftE (word2bytes k.arch word)) fun bytes =>
    if size < k.arch.W then Py.pure (data ++ bytes.take size)
    else readWords k (address + k.arch.W) (size - k.arch.W) (data ++ bytes)
termination_by size
decreasing_by
  have : 0 < k.arch.W := by unfold Arch.W; split <;> decide
  omega

/-- `PtraceProcess._readBytes` (`ptrace/debugger/process.py:504-536`). Sizes are naturals: a negative
size (never passed by the package) is outside the model. -/
def readBytesPeek (k : Kernel) (address size : Nat) : Py MemSt Bytes :=
  let offset := address % k.arch.W
  if offset ≠ 0 then
    let address := address - offset
    Py.bind (readWord k address) fun word =>
    Py.bind (liftE (word2bytes k.arch word)) fun bytes =>
    let subsize := min (k.arch.W - offset) size
    let data := slice bytes offset (offset + subsize)
    readWords k (address + k.arch.W) (size - subsize) data
  else readWords k address size []

/-- The part of `readBytes` after the file is open (`ptrace/debugger/process.py:568-585`).
`FileIO.seek` converts the position to a signed 64 bit `off_t` and raises `OverflowError`, which is
neither `IOError` nor `ValueError`, so it is not converted to `ProcessError`. -/
def readMemFile (k : Kernel) (address size : Nat) : Py MemSt Bytes := fun s =>
  if 2 ^ 63 ≤ address then (.error .overflow, s)
  else
    let s' := { s with log := .memRead address size :: s.log }
    match k.readReply s.log address size with
    | .err _ => (.error (.ptrace none), s')
    | .count n =>
      let data := bytesAt s.mem address (min n size)
      if data.length = 0 ∧ size ≠ 0 then
        readBytesPeek k address size { s' with fallback := true }
      else (.ok data, s')

/-- `PtraceProcess.readBytes` (`ptrace/debugger/process.py:554-585`). -/
def readBytes (k : Kernel) (address size : Nat) : Py MemSt Bytes := fun s =>
  if s.fallback then readBytesPeek k address size s
  else if s.memFile then readMemFile k address size s
  else
    let s' := { s with log := .memOpen :: s.log }
    if k.openErr s.log ≠ 0 then readBytesPeek k address size { s' with fallback := true }
    else readMemFile k address size { s' with memFile := true }

/-- The full-word loop and the trailing partial word of `writeBytes`
(`ptrace/debugger/process.py:622-640`). -/
def writeWords (k : Kernel) (address : Nat) (bytes : Bytes) : Py MemSt Unit :=
  if _h : k.arch.W ≤ bytes.length then
    Py.bind (liftE (bytes2word k.arch (bytes.take k.arch.W))) fun word =>
    Py.bind (writeWord k address word) fun _ =>
    writeWords k (address + k.arch.W) (bytes.drop k.arch.W)
  else if bytes = [] then Py.pure ()
  else
    let size := bytes.length
    Py.bind (readBytes k address k.arch.W) fun word =>
    let word := bytes ++ word.drop size
    Py.bind (liftE (bytes2word k.arch word)) fun w =>
    writeWord k address w
termination_by bytes.length
decreasing_by
  have : 0 < k.arch.W := by unfold Arch.W; split <;> decide
  simp only [List.length_drop]; omega

/-- `PtraceProcess.writeBytes` (`ptrace/debugger/process.py:594-640`, branch without PTRACE_IO). -/
def writeBytes (k : Kernel) (address : Nat) (bytes : Bytes) : Py MemSt Unit :=
  let offset := address % k.arch.W
  if offset ≠ 0 then
    let address := address - offset
    let size := k.arch.W - offset
    Py.bind (readBytes k address k.arch.W) fun word =>
    let (size, word) :=
      if bytes.length < size then
        let size := bytes.length
        (size, word.take offset ++ bytes.take size ++ word.drop (offset + size))
      else (size, word.take offset ++ bytes.take size)
    Py.bind (liftE (bytes2word k.arch word)) fun w =>
    Py.bind (writeWord k address w) fun _ =>
    writeWords k (address + k.arch.W) (bytes.drop size)
  else writeWords k address bytes

/-- `data.find(b'\0')` (`ptrace/debugger/process.py:659`), `none` for -1. -/
def findNul (data : Bytes) : Option Nat := data.findIdx? (· = 0)

/-- The loop of `readCString` (`ptrace/debugger/process.py:656-673`). `fuel` bounds the number of
iterations; running out is `Exc.diverge`. `string` is the text joined so far. -/
def readCStringLoop (k : Kernel) (max_size chunk_length : Nat) :
    Nat → Nat → Nat → Bytes → Py MemSt (Bytes × Bool)
  | 0, _, _, _ => Py.raise .diverge
  | fuel + 1, address, size, string =>
    Py.bind (readBytes k address chunk_length) fun data =>
    let pos := findNul data
    let done := pos.isSome
    let data := match pos with
      | some p => data.take p
      | none => data
    if max_size ≤ size + chunk_length then
      Py.pure (string ++ data.take (max_size - size), true)
    else if done then Py.pure (string ++ data, false)
    else readCStringLoop k max_size chunk_length fuel (address + chunk_length)
      (size + chunk_length) (string ++ data)

/-- `PtraceProcess.readCString` (`ptrace/debugger/process.py:652-673`) with non-negative limits. -/
def readCString (k : Kernel) (fuel address max_size chunk_length : Nat) : Py MemSt (Bytes × Bool) :=
  readCStringLoop k max_size chunk_length fuel address 0 []

end PT
