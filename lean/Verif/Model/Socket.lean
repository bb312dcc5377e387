import Verif.Model.Ctypes

/-
Model of the network address display: `/repo/ptrace/syscall/socketcall_struct.py`,
`/repo/ptrace/syscall/socketcall.py:58-69`.
-/

namespace PT

/-- Python's `'%d' % n` / `str(n)` for a non-negative integer (runtime primitive). -/
def natStr (n : Nat) : Str := Nat.toDigits 10 n

/-- `socket.inet_ntoa` of four bytes (runtime primitive): dotted decimal, `OSError` on another length. -/
def inetNtoa : Bytes → Except Exc Str
  | [a, b, c, d] => .ok (natStr a.val ++ '.' :: natStr b.val ++ '.' :: natStr c.val ++ '.' :: natStr d.val)
  | _ => .error (.os 0)

/-- `ip_int2str` (`ptrace/syscall/socketcall_struct.py:8-16`): `inet_ntoa(pack("!I", ip))`. -/
def ip_int2str (ip : Int) : Except Exc Str := do
  inetNtoa (← packUint true 4 ip)

/-- A `c_uint16`/`c_uint32` field of a ctypes structure: native byte order of the host. -/
def readNativeUint (a : Arch) (b : Bytes) : Nat := leValue (if a.big then b.reverse else b)

/-- `in_addr.__repr__` (`ptrace/syscall/socketcall_struct.py:42-44`) of the four bytes found in
the tracee's memory. -/
def inAddrRepr (a : Arch) (b : Bytes) : Except Exc Str := do
  let ip ← ntoh_uint (readNativeUint a b)
  ip_int2str ip

/-- `formatSockaddrInStruct` for `sin_port` (`ptrace/syscall/socketcall.py:61-64`) of the two bytes
found in the tracee's memory. -/
def sinPort (a : Arch) (b : Bytes) : Except Exc Nat := ntoh_ushort (readNativeUint a b)

end PT
