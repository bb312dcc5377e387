import Verif.Model.Call
import Verif.Model.Format
import Verif.Model.Repr
import Verif.Model.Socket

/-
Model of the texts of system call arguments: `SyscallArgument` (`/repo/ptrace/syscall/syscall_argument.py`), `FunctionArgument.getText`,
`readStruct` and `readArray` (`/repo/ptrace/func_arg.py`), `formatOptVal` and `formatSockaddr` (`/repo/ptrace/syscall/socketcall.py`),
`formatSocketType` (`/repo/ptrace/syscall/socketcall_constants.py`), `formatDirFd` (`/repo/ptrace/syscall/posix_arg.py`), the structures
of `/repo/ptrace/syscall/linux_struct.py` and `socketcall_struct.py` on Linux, and `PtraceProcess.readStruct` and `readArray`
(`/repo/ptrace/debugger/process.py:642-650`). Log messages are left out.
-/

namespace PT

/-! ### Tables -/

/-- `SOCKET_FAMILY` (`socketcall_constants.py:23-50`). -/
def socketFamily : List (Nat × String) :=
  [(0, "AF_UNSPEC"), (1, "AF_FILE"), (2, "AF_INET"), (3, "AF_AX25"), (4, "AF_IPX"), (5, "AF_APPLETALK"), (6, "AF_NETROM"),
   (7, "AF_BRIDGE"), (8, "AF_ATMPVC"), (9, "AF_X25"), (10, "AF_INET6"), (11, "AF_ROSE"), (12, "AF_DECnet"), (13, "AF_NETBEUI"),
   (14, "AF_SECURITY"), (15, "AF_KEY"), (16, "AF_NETLINK"), (17, "AF_PACKET"), (18, "AF_ASH"), (19, "AF_ECONET"),
   (20, "AF_ATMSVC"), (22, "AF_SNA"), (23, "AF_IRDA"), (24, "AF_PPPOX"), (25, "AF_WANPIPE"), (31, "AF_BLUETOOTH")]

/-- `SOCKET_TYPE` (`socketcall_constants.py:52-59`). -/
def socketType : List (Nat × String) :=
  [(1, "SOCK_STREAM"), (2, "SOCK_DGRAM"), (3, "SOCK_RAW"), (4, "SOCK_RDM"), (5, "SOCK_SEQPACKET"), (10, "SOCK_PACKET")]

/-- `RLIMIT_RESOURCE` (`linux_constants.py:6-23`). -/
def rlimitResource : List (Nat × String) :=
  [(0, "RLIMIT_CPU"), (1, "RLIMIT_FSIZE"), (2, "RLIMIT_DATA"), (3, "RLIMIT_STACK"), (4, "RLIMIT_CORE"), (5, "RLIMIT_RSS"),
   (6, "RLIMIT_NPROC"), (7, "RLIMIT_NOFILE"), (8, "RLIMIT_MEMLOCK"), (9, "RLIMIT_AS"), (10, "RLIMIT_LOCKS"),
   (11, "RLIMIT_SIGPENDING"), (12, "RLIMIT_MSGQUEUE"), (13, "RLIMIT_NICE"), (14, "RLIMIT_RTPRIO"), (15, "RLIMIT_NLIMITS")]

/-- `SYSCALL_ARG_DICT` on Linux (`posix_constants.py:5-60`, `linux_constants.py:25-32`): names of values, by system call and argument. -/
def argDict : List (String × List (String × List (Nat × String))) :=
  [("lseek", [("origin", [(0, "SEEK_SET"), (1, "SEEK_CUR"), (2, "SEEK_END")])]),
   ("futex", [("op", [(0, "FUTEX_WAIT"), (1, "FUTEX_WAKE"), (2, "FUTEX_FD"), (3, "FUTEX_REQUEUE"), (4, "FUTEX_CMP_REQUEUE"), (5, "FUTEX_WAKE_OP"),
       (6, "FUTEX_LOCK_PI"), (7, "FUTEX_UNLOCK_PI"), (8, "FUTEX_TRYLOCK_PI")])]),
   ("fcntl", [("cmd", [(0, "F_DUPFD"), (1, "F_GETFD"), (2, "F_SETFD"), (3, "F_GETFL"), (4, "F_SETFL"), (5, "F_GETOWN"), (6, "F_SETOWN"),
       (7, "F_GETLK"), (8, "F_SETLK"), (9, "F_SETLKW")])]),
   ("ipc", [("call", [(1, "SEMOP"), (2, "SEMGET"), (3, "SEMCTL"), (4, "SEMTIMEDOP"), (11, "MSGSND"), (12, "MSGRCV"), (13, "MSGGET"),
       (14, "MSGCTL"), (21, "SHMAT"), (22, "SHMDT"), (23, "SHMGET"), (24, "SHMCTL")])]),
   ("socket", [("domain", socketFamily),
     ("protocol", [(1, "IPPROTO_ICMP"), (58, "IPPROTO_ICMPV6")])]),
   ("getsockopt", [("level", [(0, "SOL_IP"), (1, "SOL_SOCKET")]),
     ("optname", [(1, "IP_TOS"), (2, "SO_REUSEADDR"), (9, "SO_KEEPALIVE"), (20, "SO_RCVTIMEO"), (21, "SO_SNDTIMEO")])]),
   ("setsockopt", [("level", [(0, "SOL_IP"), (1, "SOL_SOCKET")]),
     ("optname", [(1, "IP_TOS"), (2, "SO_REUSEADDR"), (9, "SO_KEEPALIVE"), (20, "SO_RCVTIMEO"), (21, "SO_SNDTIMEO")])]),
   ("getrlimit", [("resource", rlimitResource)]),
   ("setrlimit", [("resource", rlimitResource)]),
   ("sigprocmask", [("how", [(0, "SIG_BLOCK"), (1, "SIG_UNBLOCK"), (2, "SIG_SETMASK")])]),
   ("rt_sigprocmask", [("how", [(0, "SIG_BLOCK"), (1, "SIG_UNBLOCK"), (2, "SIG_SETMASK")])])]

/-! ### ctypes structures -/

/-- The C types of the fields. `sint n` and `uint n` are integers of `n` bytes. -/
inductive CType where
  | char
  | chars (n : Nat)
  | sint (n : Nat)
  | uint (n : Nat)
  | inAddr
  | in6Addr
  deriving DecidableEq, Repr

/-- `sizeof` -/
def CType.size : CType → Nat
  | .char => 1
  | .chars n => n
  | .sint n => n
  | .uint n => n
  | .inAddr => 4
  | .in6Addr => 16

/-- `alignment`: that of the C compiler on Linux, for integers of at most one word. -/
def CType.align : CType → Nat
  | .char => 1
  | .chars _ => 1
  | .sint n => n
  | .uint n => n
  | .inAddr => 4
  | .in6Addr => 4

/-- The next multiple of `n`. -/
def roundUp (k n : Nat) : Nat := (k + n - 1) / n * n

/-- A `ctypes.Structure`: `__name__` and `_fields_`. -/
structure CStruct where
  name : String
  fields : List (String × CType)
  deriving DecidableEq, Repr

/-- Fields with their offsets (runtime: ctypes lays out fields like the C compiler). -/
def layoutFrom : Nat → List (String × CType) → List (String × CType × Nat)
  | _, [] => []
  | k, (name, t) :: fields => (name, t, roundUp k t.align) :: layoutFrom (roundUp k t.align + t.size) fields

/-- The end of the last field. -/
def endFrom : Nat → List (String × CType) → Nat
  | k, [] => k
  | k, (_, t) :: fields => endFrom (roundUp k t.align + t.size) fields

/-- `sizeof(struct)` -/
def CStruct.sizeof (s : CStruct) : Nat := roundUp (endFrom 0 s.fields) (s.fields.foldl (fun m f => max m f.2.align) 1)

/-- `timeval` (`linux_struct.py:9-13`). -/
def timeval (a : Arch) : CStruct := ⟨"timeval", [("tv_sec", .sint a.W), ("tv_usec", .sint a.W)]⟩
/-- `timespec` (`linux_struct.py:16-20`). -/
def timespec (a : Arch) : CStruct := ⟨"timespec", [("tv_sec", .sint a.W), ("tv_nsec", .sint a.W)]⟩
/-- `pollfd` (`linux_struct.py:23-28`). -/
def pollfd : CStruct := ⟨"pollfd", [("fd", .sint 4), ("events", .sint 2), ("revents", .sint 2)]⟩
/-- `rlimit` (`linux_struct.py:31-35`); `rlim_t` is `c_long`. -/
def rlimit (a : Arch) : CStruct := ⟨"rlimit", [("rlim_cur", .sint a.W), ("rlim_max", .sint a.W)]⟩
/-- `new_utsname` (`linux_struct.py:38-46`). -/
def newUtsname : CStruct :=
  ⟨"new_utsname", [("sysname", .chars 65), ("nodename", .chars 65), ("release", .chars 65), ("version", .chars 65), ("machine", .chars 65),
    ("domainname", .chars 65)]⟩
/-- `user_desc` (`linux_struct.py:51-62`). -/
def userDesc (a : Arch) : CStruct :=
  ⟨"user_desc", [("entry_number", .uint 4), ("base_addr", .uint a.W), ("limit", .uint 4), ("_bits_", .char)]⟩
/-- `sockaddr` (`socketcall_struct.py:25-34`). -/
def sockaddr : CStruct := ⟨"sockaddr", [("family", .uint 2)]⟩
/-- `sockaddr_in` (`socketcall_struct.py:62-75`). -/
def sockaddrIn : CStruct := ⟨"sockaddr_in", [("sin_family", .uint 2), ("sin_port", .uint 2), ("sin_addr", .inAddr)]⟩
/-- `sockaddr_in6` (`socketcall_struct.py:78-94`). -/
def sockaddrIn6 : CStruct :=
  ⟨"sockaddr_in6", [("sin6_family", .uint 2), ("sin6_port", .uint 2), ("sin6_flowinfo", .uint 4), ("sin6_addr", .in6Addr),
    ("sin6_scope_ip", .uint 4)]⟩
/-- `sockaddr_un` (`socketcall_struct.py:99-103`). -/
def sockaddrUn : CStruct := ⟨"sockaddr_un", [("sun_family", .uint 2), ("sun_path", .chars 108)]⟩
/-- `sockaddr_nl` (`socketcall_struct.py:107-114`). -/
def sockaddrNl : CStruct := ⟨"sockaddr_nl", [("nl_family", .uint 2), ("nl_pad", .uint 2), ("nl_pid", .uint 4), ("nl_groups", .uint 4)]⟩

/-- `KNOWN_STRUCTS` (`syscall_argument.py:30-34`). -/
def knownStructs (a : Arch) : List (String × CStruct) :=
  [timeval a, timespec a, pollfd, rlimit a, newUtsname, userDesc a].map fun s => (s.name, s)

/-- The value of a field. -/
inductive CVal where
  | int (v : Int)
  | bytes (b : Bytes)
  | addr (b : Bytes)
  | addr6 (b : Bytes)
  deriving DecidableEq, Repr

/-- A signed integer in the byte order of the host. -/
def readNativeInt (a : Arch) (b : Bytes) : Int :=
  let v := readNativeUint a b
  if 2 ^ (8 * b.length - 1) ≤ v then (v : Int) - 2 ^ (8 * b.length) else v

/-- `getattr(data, name)`: an array of `c_char` ends before its first NUL. -/
def CType.decode (a : Arch) (t : CType) (b : Bytes) : CVal :=
  match t with
  | .char => .bytes b
  | .chars _ => .bytes (b.takeWhile (· ≠ 0))
  | .sint _ => .int (readNativeInt a b)
  | .uint _ => .int (readNativeUint a b)
  | .inAddr => .addr b
  | .in6Addr => .addr6 b

/-- The groups of `in6_addr.__repr__` (`socketcall_struct.py:54-56`). -/
def in6Groups (a : Arch) : Nat → Bytes → Except Exc (List Str)
  | 0, _ => .ok []
  | n + 1, b => do
    let part ← ntoh_ushort (readNativeUint a (b.take 2))
    let rest ← in6Groups a n (b.drop 2)
    .ok (pyHexPad 4 part :: rest)

/-- `in6_addr.__repr__` (`socketcall_struct.py:54-56`). -/
def in6AddrRepr (a : Arch) (b : Bytes) : Except Exc Str := do
  let groups ← in6Groups a 8 b
  .ok ("<in6_addr ".toList ++ [':'].intercalate groups ++ ['>'])

/-- `repr(value)` of a field. -/
def CVal.repr (a : Arch) : CVal → Except Exc Str
  | .int v => .ok (pyDecInt v)
  | .bytes b => .ok (reprBytes b)
  | .addr b => inAddrRepr a b
  | .addr6 b => in6AddrRepr a b

/-- `formatSockaddrInStruct` and `formatSockaddrIn6Struct` behind `SyscallArgument.formatStructValue` (`syscall_argument.py:245-249`,
`socketcall.py:61-73`): the ports. -/
def structCallback (struct name : String) (v : CVal) : Except Exc (Option Str) :=
  if (struct = "sockaddr_in" ∧ name = "sin_port") ∨ (struct = "sockaddr_in6" ∧ name = "sin6_port") then
    match v with
    | .int v => do return some (pyDec (← ntoh_ushort v))
    | _ => .error .struct
  else .ok none

/-- The text of one field (`func_arg.py:76-87`): an error of the callback shows the value. -/
def fieldText (a : Arch) (struct name : String) (v : CVal) : Except Exc Str := do
  let text ← match structCallback struct name v with
    | .ok (some text) => .ok text
    | _ => v.repr a
  .ok (name.toList ++ '=' :: text)

/-- The texts of the fields. -/
def fieldTexts (a : Arch) (struct : String) (data : Bytes) : List (String × CType × Nat) → Except Exc (List Str)
  | [] => .ok []
  | (name, t, off) :: fields => do
    let text ← fieldText a struct name (t.decode a ((data.drop off).take t.size))
    let rest ← fieldTexts a struct data fields
    .ok (text :: rest)

/-! ### Reading -/

/-- What a text depends on besides the call: the tracee, the options and the machine. `beyond` is the memory of the tracer behind the
NUL that ends a bytes object. -/
structure ArgEnv (σ : Type) where
  arch : Arch
  signames : List (Nat × Str)
  printable : Nat → Bool
  beyond : Nat → Byte
  readBytes : Nat → Nat → Py σ Bytes
  readWord : Nat → Py σ Nat
  readCString : Nat → Nat → Py σ (Bytes × Bool)
  writeTypes : Bool := false
  writeArgname : Bool := false
  writeAddress : Bool := false
  stringMax : Nat := 300
  maxArray : Nat := 20

/-- `try: m except PTRACE_ERRORS: h` where `PTRACE_ERRORS = Exception` (`error.py:6`): all but `KeyboardInterrupt`. -/
def exceptAny {σ α : Type} (m h : Py σ α) : Py σ α := fun s =>
  match m s with
  | (.error e, s') => if e = .interrupt ∨ e = .diverge then (.error e, s') else h s'
  | r => r

/-- The bytes seen through `cast(c_char_p(bytes), POINTER(type))` (`ctypes_tools.py:174-178`) of a type of `n` bytes: no length is checked. -/
def castBytes (beyond : Nat → Byte) (bytes : Bytes) (n : Nat) : Bytes :=
  (List.range n).map fun i => if h : i < bytes.length then bytes[i] else if i = bytes.length then 0 else beyond i

variable {σ : Type}

/-- `process.readStruct(address, struct)` (`process.py:642-645`): the bytes of the structure. -/
def readStructBytes (E : ArgEnv σ) (address size : Nat) : Py σ Bytes :=
  Py.bind (E.readBytes address size) fun bytes => Py.pure (castBytes E.beyond bytes size)

/-- `process.readStruct(address, c_int)`. -/
def readCInt (E : ArgEnv σ) (address : Nat) : Py σ Int :=
  Py.bind (readStructBytes E address 4) fun bytes => Py.pure (readNativeInt E.arch bytes)

/-- `FunctionArgument.formatPointer` (`func_arg.py:63-67`). -/
def ArgEnv.pointer (E : ArgEnv σ) (text : Str) (address : Nat) : Str := formatPointer E.arch E.writeAddress text address

/-- `FunctionArgument.readStruct` (`func_arg.py:69-89`). -/
def argReadStruct (E : ArgEnv σ) (address : Nat) (struct : CStruct) : Py σ Str :=
  Py.bind (readStructBytes E address struct.sizeof) fun data =>
  Py.bind (liftE (fieldTexts E.arch struct.name data (layoutFrom 0 struct.fields))) fun texts =>
  Py.pure (E.pointer ('<' :: struct.name.toList ++ ' ' :: (", ".toList).intercalate texts ++ ['>']) address)

/-- The integers of `readArray(address, c_int, count)` (`process.py:647-650`). -/
def splitInts (a : Arch) : Nat → Bytes → List Int
  | 0, _ => []
  | n + 1, b => readNativeInt a (b.take 4) :: splitInts a n (b.drop 4)

/-- `FunctionArgument.readArray` (`func_arg.py:94-102`) with `c_int`. -/
def argReadInts (E : ArgEnv σ) (address count : Nat) : Py σ Str :=
  Py.bind (readStructBytes E address (4 * count)) fun data =>
  Py.pure (E.pointer ("<(".toList ++ (", ".toList).intercalate ((splitInts E.arch count data).map pyDecInt) ++ ")>".toList) address)

/-- `repr(os.fsdecode(data))`, followed by `...` when truncated (`syscall_argument.py:203-206`). -/
def stringText (printable : Nat → Bool) (data : Bytes) (truncated : Bool) : Str :=
  reprStr printable (fsdecode data) ++ if truncated then "...".toList else []

/-- `SyscallArgument.readCString` (`syscall_argument.py:198-209`). -/
def argReadCString (E : ArgEnv σ) (address : Nat) : Py σ Str :=
  if address ≠ 0 then
    Py.bind (E.readCString address E.stringMax) fun r =>
    Py.pure (E.pointer (stringText E.printable r.1 r.2) address)
  else Py.pure (E.pointer "NULL".toList address)

/-- `SyscallArgument.readString` (`syscall_argument.py:211-224`). -/
def argReadString (E : ArgEnv σ) (address size : Nat) : Py σ Str :=
  if address ≠ 0 then
    Py.bind (E.readBytes address (min size E.stringMax)) fun data =>
    Py.pure (E.pointer (stringText E.printable data (decide (E.stringMax < size))) address)
  else Py.pure (E.pointer "NULL".toList address)

/-! ### Callbacks -/

/-- `function[0]`, ...: a missing argument raises `IndexError` (`func_call.py:60-61`). -/
def argAt (c : SysCall) (i : Nat) : Py σ SysArg :=
  match c.arguments[i]? with
  | some a => Py.pure a
  | none => Py.raise .index

/-- `function[name]` (`func_call.py:54-59`): a missing argument raises `KeyError`. -/
def argNamed (c : SysCall) (name : String) : Py σ SysArg :=
  match c.arguments.find? (fun a => decide (a.name = some name)) with
  | some a => Py.pure a
  | none => Py.raise .key

/-- `socket.SOCK_CLOEXEC` on Linux. -/
def SOCK_CLOEXEC : Nat := 0x80000

/-- `formatSocketType` (`socketcall_constants.py:62-74`). -/
def formatSocketType (value : Nat) : Str :=
  let cloexec := value &&& SOCK_CLOEXEC
  let value := clearBits value SOCK_CLOEXEC
  let text := match socketType.lookup value with
    | some name => name.toList
    | none => pyDec value
  if cloexec ≠ 0 then text ++ "|SOCK_CLOEXEC".toList else text

/-- `formatDirFd` (`posix_arg.py:132-134`). -/
def formatDirFd (value : Nat) : Str := if uint2int32 value = -100 then "AT_FDCWD".toList else pyDecInt (uint2int32 value)

/-- `formatOptVal` (`socketcall.py:17-25`). -/
def formatOptVal (E : ArgEnv σ) (c : SysCall) (a : SysArg) : Py σ (Option Str) :=
  Py.bind (argNamed c "optlen") fun optlen =>
  if optlen.value = 4 then
    Py.bind (readCInt E a.value) fun v => Py.pure (some (E.pointer ('<' :: pyDecInt v ++ ['>']) a.value))
  else Py.pure none

/-- `formatSockaddr` (`socketcall.py:28-43`): `AF_FILE` is 1, `AF_INET` 2, `AF_INET6` 10, `AF_NETLINK` 16. -/
def formatSockaddr (E : ArgEnv σ) (address : Nat) : Py σ Str :=
  Py.bind (readStructBytes E address sockaddr.sizeof) fun data =>
  let family := readNativeUint E.arch data
  if family = 2 then argReadStruct E address sockaddrIn
  else if family = 10 then argReadStruct E address sockaddrIn6
  else if family = 1 then argReadStruct E address sockaddrUn
  else if family = 16 then argReadStruct E address sockaddrNl
  else
    let text := match socketFamily.lookup family with
      | some name => name.toList
      | none => pyDec family
    Py.pure (E.pointer ("<sockaddr family=".toList ++ text ++ ['>']) address)

/-- `ARGUMENT_CALLBACK[syscall][name]` (`syscall_argument.py:36-47`), applied to the argument. -/
def argumentCallback (E : ArgEnv σ) (c : SysCall) (name : String) (a : SysArg) : Option (Py σ (Option Str)) :=
  match c.name, name with
  | "access", "mode" => some (Py.pure (some (formatAccessMode a.value)))
  | "open", "flags" => some (Py.pure (some (formatOpenFlags a.value)))
  | "open", "mode" => some (Py.pure (some (formatOpenMode a.value)))
  | "openat", "dirfd" => some (Py.pure (some (formatDirFd a.value)))
  | "openat", "flags" => some (Py.pure (some (formatOpenFlags a.value)))
  | "openat", "mode" => some (Py.pure (some (formatOpenMode a.value)))
  | "name_to_handle_at", "dirfd" => some (Py.pure (some (formatDirFd a.value)))
  | "mmap", "prot" => some (Py.pure (some (formatMmapProt a.value)))
  | "mmap2", "prot" => some (Py.pure (some (formatMmapProt a.value)))
  | "clone", "flags" => some (Py.pure (some (formatCloneFlags E.signames a.value)))
  | "socket", "type" => some (Py.pure (some (formatSocketType a.value)))
  | "setsockopt", "optval" => some (formatOptVal E c a)
  | _, _ => none

/-! ### Texts -/

/-- `text.startswith(prefix)`, and the rest of the text. -/
def dropPrefix : Str → Str → Option Str
  | [], t => some t
  | _ :: _, [] => none
  | p :: ps, c :: t => if p = c then dropPrefix ps t else none

/-- `argtype[n:]` when it starts with a prefix of that length (`syscall_argument.py:118-120`, `151-152`). -/
def withoutPrefix (p t : Str) : Str := (dropPrefix p t).getD t

/-- The digits and the bracket at the end of `(.*)\[([0-9])+\]`: the last digit (the group is repeated, so it holds the last one). -/
def bracketDigits : Str → Option Nat
  | d :: ']' :: _ => if d.isDigit then some (d.toNat - 48) else none
  | d :: rest => if d.isDigit then bracketDigits rest else none
  | [] => none

/-- `re.match(r"(.*)\[([0-9])+\]", argtype)` (`syscall_argument.py:137-140`): the base type and `int(match.group(2))`. The group `.*` is as
long as possible. -/
def arrayType : Str → Option (Str × Nat)
  | [] => none
  | c :: rest =>
    match arrayType rest with
    | some (base, n) => some (c :: base, n)
    | none => if c = '[' then (bracketDigits rest).map fun n => ([], n) else none

/-- `formatValuePointer` (`syscall_argument.py:146-191`). `argtype` is the type without the star. -/
def formatValuePointer (E : ArgEnv σ) (c : SysCall) (a : SysArg) (argtype : Str) : Py σ (Option Str) :=
  let some' (m : Py σ Str) : Py σ (Option Str) := Py.bind m fun t => Py.pure (some t)
  if a.value = 0 then Py.pure (some "NULL".toList)
  else
    let argtype := withoutPrefix "struct ".toList argtype
    if argtype = "sockaddr".toList then some' (formatSockaddr E a.value)
    else if argtype = "int".toList then
      Py.bind (readCInt E a.value) fun v => Py.pure (some (E.pointer ('<' :: pyDecInt v ++ ['>']) a.value))
    else match (knownStructs E.arch).lookup (String.ofList argtype) with
      | some struct => some' (argReadStruct E a.value struct)
      | none =>
        if argtype = "fd_set".toList then
          Py.bind (argAt c 0) fun nfds => some' (formatFdSet E.arch E.readBytes E.writeAddress a.value nfds.value)
        else if c.name = "rt_sigprocmask" ∧ argtype = "sigset_t".toList then
          Py.bind (argNamed c "sigsetsize") fun n => some' (formatSigset E.arch E.signames E.readBytes E.writeAddress a.value n.value)
        else Py.pure none

/-- `FILENAME_ARGUMENTS` (`prototypes.py:20-21`). -/
def filenameArguments : List String := ["filename", "pathname", "path", "oldname", "newname", "old", "new"]

/-- `INTEGER_TYPES` (`syscall_argument.py:60-63`). -/
def integerTypes : List String := ["int", "size_t", "clockid_t", "long", "socklen_t", "pid_t", "uid_t", "gid_t"]

/-- The end of `createText`, by type (`syscall_argument.py:125-144`). -/
def typedText (E : ArgEnv σ) (c : SysCall) (a : SysArg) (argtype : Str) : Py σ (Option Str) :=
  if argtype.getLast? = some '*' then
    Py.bind (exceptAny (formatValuePointer E c a (strip (· == ' ') argtype.dropLast)) (Py.pure none)) fun text =>
    match text with
    | some (x :: t) => Py.pure (some (x :: t))
    | _ => Py.pure (some (formatAddress E.arch a.value))
  else
    let simple : Py σ (Option Str) :=
      if String.ofList argtype ∈ ["unsigned int", "unsigned long", "u32"] then Py.pure (some (pyDec a.value))
      else if String.ofList argtype ∈ integerTypes then Py.pure (some (pyDecInt (uint2int32 a.value)))
      else Py.pure (some (formatWordHex E.arch a.value))
    match arrayType argtype with
    | some (base, count) => if base = "int".toList then Py.bind (argReadInts E a.value count) fun t => Py.pure (some t) else simple
    | none => simple

/-- The text of `args` of `socketcall` when it is not replaced (`syscall_argument.py:104-108`): the arguments of the call made are plain
`FunctionArgument`s, shown by `repr` (`func_arg.py:60-61`). -/
def socketcallArgs (E : ArgEnv σ) (c : SysCall) (a : SysArg) : Py σ (Option Str) :=
  Py.bind (argAt c 0) fun call =>
  Py.bind (setupSocketCall E.arch.W E.readWord call.value a.value) fun f =>
  let text := callFormat ⟨E.writeTypes, E.writeArgname⟩ f.restype.toList f.name.toList
    (f.arguments.map fun g => ⟨(g.type.getD "").toList, (g.name.getD "").toList, pyDec g.value⟩)
  Py.pure (some (E.pointer ('<' :: text ++ ['>']) a.value))

/-- `createText` behind the table and the callbacks (`syscall_argument.py:95-144`). -/
def createPlain (E : ArgEnv σ) (c : SysCall) (a : SysArg) (type name : String) : Py σ (Option Str) :=
  if c.name = "execve" ∧ (name = "argv" ∨ name = "envp") then
    Py.bind (readCStringArray E.arch E.readWord (argReadCString E) E.writeAddress E.maxArray (E.maxArray + 1) a.value) fun t => Py.pure (some t)
  else if c.name = "socketcall" ∧ name = "call" then Py.pure (some (socketcallText a.value).toList)
  else if c.name = "socketcall" ∧ name = "args" then socketcallArgs E c a
  else
    let rest : Py σ (Option Str) :=
      if name = "signum" then Py.pure (some (signalName E.signames a.value))
      else
        let argtype := withoutPrefix "const ".toList type.toList
        if name ∈ filenameArguments ∧ argtype = "char *".toList then
          Py.bind (argReadCString E a.value) fun t => Py.pure (some t)
        else typedText E c a argtype
    if c.name = "write" ∧ name = "buf" then
      Py.bind (argAt c 0) fun fd =>
      if fd.value < 3 then
        Py.bind (argAt c 2) fun count => Py.bind (argReadString E a.value count.value) fun t => Py.pure (some t)
      else rest
    else rest

/-- `SYSCALL_ARG_DICT[syscall][name][value]` (`syscall_argument.py:84-88`). -/
def argDictText (syscall name : String) (value : Nat) : Option String := do
  let args ← argDict.lookup syscall
  let names ← args.lookup name
  names.lookup value

/-- `SyscallArgument.createText` (`syscall_argument.py:75-144`); `none` is Python's `None`. -/
def createText (E : ArgEnv σ) (c : SysCall) (a : SysArg) : Py σ (Option Str) :=
  match a.type, a.name with
  | some type, some name =>
    if type = "" ∨ name = "" then Py.pure (some (formatWordHex E.arch a.value))
    else match argDictText c.name name a.value with
      | some text => Py.pure (some text.toList)
      | none => match argumentCallback E c name a with
        | some m => m
        | none => createPlain E c a type name
  | _, _ => Py.pure (some (formatWordHex E.arch a.value))

/-- The body of `getText` (`func_arg.py:32-44`). -/
def argText (E : ArgEnv σ) (c : SysCall) (a : SysArg) : Py σ Str :=
  exceptAny
    (Py.bind (createText E c a) fun text =>
      match text with
      | some t => Py.pure t
      | none => Py.pure (if isPointer (a.type.getD "") then formatAddress E.arch a.value else pyDec a.value))
    (Py.pure (pyDec a.value))

end PT
