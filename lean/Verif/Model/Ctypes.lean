import Mathlib.Data.Int.Bitwise
import Verif.Model.Py

/-
Model of `/repo/ptrace/ctypes_tools.py` and `/repo/ptrace/cpu_info.py`.
Python's `&` on integers is `Int.land` (two's complement of unbounded width), `>>` on
non-negative integers is `Nat.shiftRight`.
-/

namespace PT

/-- The host CPU as far as `ptrace/cpu_info.py:25-33` describes it: word size in bytes
(`CPU_WORD_SIZE`, 4 or 8) and byte order (`CPU_BIGENDIAN`). -/
structure Arch where
  is64 : Bool
  big : Bool
  deriving DecidableEq, Repr

/-- `CPU_WORD_SIZE` (`ptrace/cpu_info.py:28-33`). -/
def Arch.W (a : Arch) : Nat := if a.is64 then 8 else 4

/-- `CPU_MAX_UINT` (`ptrace/cpu_info.py:28-33`). -/
def Arch.maxUint (a : Arch) : Nat := if a.is64 then 0xffffffffffffffff else 0xffffffff

/-- `int2uint64` (`ptrace/ctypes_tools.py:6-19`). -/
def int2uint64 (value : Int) : Int := Int.land value 0xffffffffffffffff

/-- `uint2int64` (`ptrace/ctypes_tools.py:22-39`). -/
def uint2int64 (value : Int) : Int :=
  let value := Int.land value 0xffffffffffffffff
  if Int.land value 0x8000000000000000 ≠ 0 then value - 0x10000000000000000 else value

/-- `truncateWord32` (`ptrace/ctypes_tools.py:42-46`). -/
def truncateWord32 (value : Int) : Int := Int.land value 0xFFFFFFFF

/-- `truncateWord64` (`ptrace/ctypes_tools.py:49-53`). -/
def truncateWord64 (value : Int) : Int := Int.land value 0xFFFFFFFFFFFFFFFF

/-- `int2uint32` (`ptrace/ctypes_tools.py:77-88`). -/
def int2uint32 (value : Int) : Int := Int.land value 0xffffffff

/-- `uint2int32` (`ptrace/ctypes_tools.py:91-111`). -/
def uint2int32 (value : Int) : Int :=
  let value := Int.land value 0xffffffff
  if Int.land value 0x80000000 ≠ 0 then value - 0x100000000 else value

/-- `ulong2long` (`ptrace/ctypes_tools.py:116-125`). -/
def ulong2long (a : Arch) (value : Int) : Int :=
  if a.is64 then uint2int64 value else uint2int32 value

/-- `long2ulong` (`ptrace/ctypes_tools.py:116-125`). -/
def long2ulong (a : Arch) (value : Int) : Int :=
  if a.is64 then int2uint64 value else int2uint32 value

/-- `truncateWord` (`ptrace/ctypes_tools.py:116-125`). -/
def truncateWord (a : Arch) (value : Int) : Int :=
  if a.is64 then truncateWord64 value else truncateWord32 value

/-! ### Hexadecimal text -/

/-- One lower case hexadecimal digit of Python's `%x`. -/
def hexDigit (d : Nat) : Char :=
  if d < 10 then Char.ofNat (48 + d) else Char.ofNat (87 + d)

/-- Digits of Python's `'%x' % n` for `n > 0`, most significant first, in front of `acc`.
Runtime primitive, not repository code. -/
def hexDigits (n : Nat) (acc : Str) : Str :=
  if h : n < 16 then hexDigit n :: acc
  else hexDigits (n / 16) (hexDigit (n % 16) :: acc)
termination_by n
decreasing_by omega

/-- Python's `'%x' % n`. -/
def pyHex (n : Nat) : Str := hexDigits n []

/-- Python's `'%0<width>x' % n` (zero padded on the left). -/
def pyHexPad (width n : Nat) : Str :=
  let s := pyHex n
  List.replicate (width - s.length) '0' ++ s

/-- `formatUintHex16` (`ptrace/ctypes_tools.py:56-60`). -/
def formatUintHex16 (value : Nat) : Str := '0' :: 'x' :: pyHexPad 4 value
/-- `formatUintHex32` (`ptrace/ctypes_tools.py:63-67`). -/
def formatUintHex32 (value : Nat) : Str := '0' :: 'x' :: pyHexPad 8 value
/-- `formatUintHex64` (`ptrace/ctypes_tools.py:70-74`). -/
def formatUintHex64 (value : Nat) : Str := '0' :: 'x' :: pyHexPad 16 value

/-- `formatWordHex` (`ptrace/ctypes_tools.py:116-125`). Simplified to non-negative values. -/
def formatWordHex (a : Arch) (value : Nat) : Str :=
  if a.is64 then formatUintHex64 value else formatUintHex32 value

/-- `formatAddress` (`ptrace/ctypes_tools.py:128-136`). -/
def formatAddress (a : Arch) (address : Nat) : Str :=
  if address ≠ 0 then formatWordHex a address else "NULL".toList

/-- `formatAddressRange` (`ptrace/ctypes_tools.py:139-143`). -/
def formatAddressRange (a : Arch) (start stop : Nat) : Str :=
  formatWordHex a start ++ '-' :: formatWordHex a stop

/-! ### struct.pack / struct.unpack -/

/-- Little endian digits of `v` on exactly `n` bytes (`struct.pack('<...')` of a value that fits). -/
def leBytes : Nat → Nat → Bytes
  | 0, _ => []
  | n + 1, v => ⟨v % 256, Nat.mod_lt _ (by decide)⟩ :: leBytes n (v / 256)

/-- Value of little endian bytes (`struct.unpack('<...')`). -/
def leValue : Bytes → Nat
  | [] => 0
  | b :: bs => b.val + 256 * leValue bs

/-- `struct.pack` of an unsigned integer of `n` bytes: `struct.error` when it does not fit. -/
def packUint (big : Bool) (n : Nat) (v : Int) : Except Exc Bytes :=
  if 0 ≤ v ∧ v < 256 ^ n then
    .ok (if big then (leBytes n v.toNat).reverse else leBytes n v.toNat)
  else .error .struct

/-- `struct.unpack` of an unsigned integer of `n` bytes: `struct.error` on another length. -/
def unpackUint (big : Bool) (n : Nat) (b : Bytes) : Except Exc Nat :=
  if b.length = n then .ok (leValue (if big then b.reverse else b)) else .error .struct

/-- `ntoh_ushort` (`ptrace/ctypes_tools.py:146-150`): `unpack("<H", pack(">H", value))[0]`. -/
def ntoh_ushort (value : Int) : Except Exc Nat := do
  unpackUint false 2 (← packUint true 2 value)

/-- `ntoh_uint` (`ptrace/ctypes_tools.py:153-157`): `unpack("<I", pack(">I", value))[0]`. -/
def ntoh_uint (value : Int) : Except Exc Nat := do
  unpackUint false 4 (← packUint true 4 value)

/-- `word2bytes` (`ptrace/ctypes_tools.py:160-164`): `pack("L", word)`, native size and order.
Simplification: C `long` has the size of a pointer (true on Linux). -/
def word2bytes (a : Arch) (word : Int) : Except Exc Bytes := packUint a.big a.W word

/-- `bytes2word` (`ptrace/ctypes_tools.py:167-171`): `unpack("L", bytes)[0]`. -/
def bytes2word (a : Arch) (bytes : Bytes) : Except Exc Nat := unpackUint a.big a.W bytes

end PT
