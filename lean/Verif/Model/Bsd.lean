import Verif.Model.Memory

/-
Model of the memory accesses of `ptrace/debugger/process.py` on FreeBSD and OpenBSD (`HAS_PTRACE_IO`): one request moves a block of
any size and any alignment.

* The kernel moves as many bytes as it decides, from the start of the block, and stores this number in `piod_len`; the decision may
  depend on all earlier requests. The descriptor is a local variable of the caller, so nobody looks at `piod_len` afterwards.
* `c_void_p` keeps the lower bits of the address.
-/

namespace PT

/-- A descriptor (`ptrace/binding/freebsd_struct.py:69-75`, `openbsd_struct.py:41-47`) without the address of the buffer. -/
structure IoDesc where
  /-- `PIOD_WRITE_D`, otherwise `PIOD_READ_D` -/
  write : Bool
  offs : Nat
  len : Nat
  deriving DecidableEq, Repr

/-- The kernel: an error number, or the number of bytes moved (cut to the length of the block by the model). -/
structure BsdKernel where
  arch : Arch
  reply : List IoDesc → IoDesc → MemReply

/-- Memory of the tracee and the requests made, newest first. -/
structure BsdMem where
  mem : Nat → Byte
  log : List IoDesc := []

/-- `ptrace_io` (`ptrace/binding/func.py:322-324`): the number of bytes moved, which stays in the descriptor. -/
def ptraceIo (k : BsdKernel) (d : IoDesc) : Py BsdMem Nat := fun s =>
  match k.reply s.log d with
  | .err e => (.error (.ptrace (some e)), { s with log := d :: s.log })
  | .count n => (.ok (min n d.len), { s with log := d :: s.log })

/-- `piod_offs=address`: a `c_void_p` field. -/
def voidP (a : Arch) (address : Nat) : Nat := address % 2 ^ (8 * a.W)

/-- `PtraceProcess.readBytes` (`ptrace/debugger/process.py:544-552`): the buffer is created with zeros. -/
def bsdReadBytes (k : BsdKernel) (address size : Nat) : Py BsdMem Bytes :=
  Py.bind (ptraceIo k ⟨false, voidP k.arch address, size⟩) fun n => fun s =>
  (.ok (bytesAt s.mem (voidP k.arch address) n ++ List.replicate (size - n) 0), s)

/-- `PtraceProcess.writeBytes` (`ptrace/debugger/process.py:594-603`). -/
def bsdWriteBytes (k : BsdKernel) (address : Nat) (bytes : Bytes) : Py BsdMem Unit :=
  Py.bind (ptraceIo k ⟨true, voidP k.arch address, bytes.length⟩) fun n => fun s =>
  (.ok (), { s with mem := storeBytes s.mem (voidP k.arch address) (bytes.take n) })

/-- The loop of `readCString` (`ptrace/debugger/process.py:649-673`) on top of it. -/
def bsdReadCStringLoop (k : BsdKernel) (max_size chunk_length : Nat) : Nat → Nat → Nat → Bytes → Py BsdMem (Bytes × Bool)
  | 0, _, _, _ => Py.raise .diverge
  | fuel + 1, address, size, string =>
    Py.bind (bsdReadBytes k address chunk_length) fun data =>
    let pos := findNul data
    let done := pos.isSome
    let data := match pos with
      | some p => data.take p
      | none => data
    if max_size ≤ size + chunk_length then
      Py.pure (string ++ data.take (max_size - size), true)
    else if done then Py.pure (string ++ data, false)
    else bsdReadCStringLoop k max_size chunk_length fuel (address + chunk_length) (size + chunk_length) (string ++ data)

/-- `PtraceProcess.readCString` (`ptrace/debugger/process.py:649-673`). -/
def bsdReadCString (k : BsdKernel) (fuel address max_size chunk_length : Nat) : Py BsdMem (Bytes × Bool) :=
  bsdReadCStringLoop k max_size chunk_length fuel address 0 []

end PT
