import Verif.Spec.Format
import Verif.Spec.Memory
import Verif.Spec.Repr

/-
What the texts of system call arguments have to show: values in memory, the structures of the Linux kernel, C types, constants.
-/

namespace PT.Spec

/-- `v` is the unsigned integer of `n` bytes that a CPU of the given byte order finds at `p`. -/
def IsUint (big : Bool) (mem : Nat → Byte) (p n v : Nat) : Prop :=
  v < 256 ^ n ∧ ∀ i < n, (mem (p + i)).val = byteAt big n v i

/-- How a field is to be shown. -/
inductive FieldKind where
  /-- a signed integer of `n` bytes, in decimal -/
  | signed (n : Nat)
  /-- an unsigned integer of `n` bytes, in decimal -/
  | unsigned (n : Nat)
  /-- a NUL terminated text in an array of `n` characters, as a bytes literal -/
  | text (n : Nat)
  /-- a port in network byte order, in decimal -/
  | port
  /-- an IPv4 address in network byte order, with dots -/
  | ip4
  /-- an IPv6 address in network byte order, eight groups of four hexadecimal digits -/
  | ip6
  deriving DecidableEq, Repr

/-- `t` shows the field at `p`. -/
def FieldShown (big : Bool) (mem : Nat → Byte) (p : Nat) : FieldKind → Str → Prop
  | .signed n, t => ∃ (v : Nat) (r : Int), IsUint big mem p n v ∧ IsSigned (8 * n - 1) v r ∧ decInt t = some r
  | .unsigned n, t => ∃ v : Nat, IsUint big mem p n v ∧ decInt t = some (v : Int)
  | .text n, t => ∃ w : Bytes, w.length ≤ n ∧ (∀ i (h : i < w.length), w[i] = mem (p + i) ∧ mem (p + i) ≠ 0) ∧
      (w.length < n → mem (p + w.length) = 0) ∧ ∃ l, t = 'b' :: l ∧ literal l = some (w.map (·.val), [])
  | .port, t => decNumber t = some (256 * (mem p).val + (mem (p + 1)).val)
  | .ip4, t => ∃ d : Nat → Str, (∀ i < 4, decNumber (d i) = some (mem (p + i)).val) ∧ t = d 0 ++ '.' :: d 1 ++ '.' :: d 2 ++ '.' :: d 3
  | .ip6, t => ∃ g : Nat → Str, (∀ i < 8, (g i).length = 4 ∧ hexNumber (g i) = some (256 * (mem (p + 2 * i)).val + (mem (p + 2 * i + 1)).val)) ∧
      t = "<in6_addr ".toList ++ [':'].intercalate ((List.range 8).map g) ++ ['>']

/-- Structures of the kernel interface: fields with offset and kind; `W` is the size of a `long`. Sources: `include/uapi/linux/time.h`,
`time_types.h`, `asm-generic/poll.h`, `resource.h`, `utsname.h`, `in.h`, `in6.h`, `un.h`, `netlink.h`, `arch/x86/include/uapi/asm/ldt.h`. -/
def kernelStructs (W : Nat) : List (String × List (String × Nat × FieldKind)) :=
  [("timeval", [("tv_sec", 0, .signed W), ("tv_usec", W, .signed W)]),
   ("timespec", [("tv_sec", 0, .signed W), ("tv_nsec", W, .signed W)]),
   ("pollfd", [("fd", 0, .signed 4), ("events", 4, .signed 2), ("revents", 6, .signed 2)]),
   ("rlimit", [("rlim_cur", 0, .unsigned W), ("rlim_max", W, .unsigned W)]),
   ("new_utsname", [("sysname", 0, .text 65), ("nodename", 65, .text 65), ("release", 130, .text 65), ("version", 195, .text 65),
     ("machine", 260, .text 65), ("domainname", 325, .text 65)]),
   ("user_desc", [("entry_number", 0, .unsigned 4), ("base_addr", 4, .unsigned 4), ("limit", 8, .unsigned 4)]),
   ("sockaddr_in", [("sin_family", 0, .unsigned 2), ("sin_port", 2, .port), ("sin_addr", 4, .ip4)]),
   ("sockaddr_in6", [("sin6_family", 0, .unsigned 2), ("sin6_port", 2, .port), ("sin6_flowinfo", 4, .unsigned 4), ("sin6_addr", 8, .ip6),
     ("sin6_scope_ip", 24, .unsigned 4)]),
   ("sockaddr_un", [("sun_family", 0, .unsigned 2), ("sun_path", 2, .text 108)]),
   ("sockaddr_nl", [("nl_family", 0, .unsigned 2), ("nl_pad", 2, .unsigned 2), ("nl_pid", 4, .unsigned 4), ("nl_groups", 8, .unsigned 4)])]

/-- `text` is `<name field=..., ...>` with one text per field, in order. -/
def StructShown (big : Bool) (mem : Nat → Byte) (address : Nat) (name : String) (fields : List (String × Nat × FieldKind)) (text : Str) : Prop :=
  ∃ texts, text = '<' :: name.toList ++ ' ' :: (", ".toList).intercalate texts ++ ['>'] ∧
    List.Forall₂ (fun f t => ∃ u, t = f.1.toList ++ '=' :: u ∧ FieldShown big mem (address + f.2.1) f.2.2 u) fields texts

/-- What a register holds for a C type on Linux: an unsigned or signed integer of a number of bits. -/
inductive CInt where
  | signed (bits : Nat)
  | unsigned (bits : Nat)
  deriving DecidableEq, Repr

/-- The integer types by their names; `W` is the size of a `long`. -/
def cTypes (W : Nat) : List (String × CInt) :=
  [("int", .signed 32), ("pid_t", .signed 32), ("clockid_t", .signed 32), ("long", .signed (8 * W)), ("size_t", .unsigned (8 * W)),
   ("socklen_t", .unsigned 32), ("uid_t", .unsigned 32), ("gid_t", .unsigned 32), ("unsigned int", .unsigned 32), ("u32", .unsigned 32),
   ("unsigned long", .unsigned (8 * W))]

/-- `r` is the value of a C integer held in a register. -/
def CInt.Is : CInt → Nat → Int → Prop
  | .signed bits, v, r => IsSigned (bits - 1) v r
  | .unsigned bits, v, r => IsUnsigned bits v r

/-- Constants of the kernel on x86, by system call and argument: `include/uapi/asm-generic/fcntl.h`, `resource.h`, `signal-defs.h`,
`include/uapi/linux/fs.h`, `futex.h`, `ipc.h`, `in.h`, `include/linux/socket.h`. -/
def kernelConstants : List (String × String × List (String × Nat)) :=
  [("lseek", "origin", [("SEEK_SET", 0), ("SEEK_CUR", 1), ("SEEK_END", 2), ("SEEK_DATA", 3), ("SEEK_HOLE", 4)]),
   ("futex", "op", [("FUTEX_WAIT", 0), ("FUTEX_WAKE", 1), ("FUTEX_FD", 2), ("FUTEX_REQUEUE", 3), ("FUTEX_CMP_REQUEUE", 4),
     ("FUTEX_WAKE_OP", 5), ("FUTEX_LOCK_PI", 6), ("FUTEX_UNLOCK_PI", 7), ("FUTEX_TRYLOCK_PI", 8)]),
   ("fcntl", "cmd", [("F_DUPFD", 0), ("F_GETFD", 1), ("F_SETFD", 2), ("F_GETFL", 3), ("F_SETFL", 4), ("F_GETLK", 5), ("F_SETLK", 6),
     ("F_SETLKW", 7), ("F_SETOWN", 8), ("F_GETOWN", 9)]),
   ("ipc", "call", [("SEMOP", 1), ("SEMGET", 2), ("SEMCTL", 3), ("SEMTIMEDOP", 4), ("MSGSND", 11), ("MSGRCV", 12), ("MSGGET", 13),
     ("MSGCTL", 14), ("SHMAT", 21), ("SHMDT", 22), ("SHMGET", 23), ("SHMCTL", 24)]),
   ("socket", "domain", [("AF_UNSPEC", 0), ("AF_FILE", 1), ("AF_UNIX", 1), ("AF_INET", 2), ("AF_AX25", 3), ("AF_IPX", 4),
     ("AF_APPLETALK", 5), ("AF_NETROM", 6), ("AF_BRIDGE", 7), ("AF_ATMPVC", 8), ("AF_X25", 9), ("AF_INET6", 10), ("AF_ROSE", 11),
     ("AF_DECnet", 12), ("AF_NETBEUI", 13), ("AF_SECURITY", 14), ("AF_KEY", 15), ("AF_NETLINK", 16), ("AF_PACKET", 17), ("AF_ASH", 18),
     ("AF_ECONET", 19), ("AF_ATMSVC", 20), ("AF_RDS", 21), ("AF_SNA", 22), ("AF_IRDA", 23), ("AF_PPPOX", 24), ("AF_WANPIPE", 25),
     ("AF_LLC", 26), ("AF_BLUETOOTH", 31)]),
   ("socket", "protocol", [("IPPROTO_ICMP", 1), ("IPPROTO_TCP", 6), ("IPPROTO_UDP", 17), ("IPPROTO_IPV6", 41), ("IPPROTO_ICMPV6", 58)]),
   ("getsockopt", "level", [("SOL_IP", 0), ("SOL_SOCKET", 1), ("SOL_TCP", 6)]),
   ("setsockopt", "level", [("SOL_IP", 0), ("SOL_SOCKET", 1), ("SOL_TCP", 6)]),
   ("getrlimit", "resource", rlimits),
   ("setrlimit", "resource", rlimits),
   ("sigprocmask", "how", [("SIG_BLOCK", 0), ("SIG_UNBLOCK", 1), ("SIG_SETMASK", 2)]),
   ("rt_sigprocmask", "how", [("SIG_BLOCK", 0), ("SIG_UNBLOCK", 1), ("SIG_SETMASK", 2)])]
where
  /-- `include/uapi/asm-generic/resource.h` -/
  rlimits : List (String × Nat) :=
    [("RLIMIT_CPU", 0), ("RLIMIT_FSIZE", 1), ("RLIMIT_DATA", 2), ("RLIMIT_STACK", 3), ("RLIMIT_CORE", 4), ("RLIMIT_RSS", 5),
     ("RLIMIT_NPROC", 6), ("RLIMIT_NOFILE", 7), ("RLIMIT_MEMLOCK", 8), ("RLIMIT_AS", 9), ("RLIMIT_LOCKS", 10), ("RLIMIT_SIGPENDING", 11),
     ("RLIMIT_MSGQUEUE", 12), ("RLIMIT_NICE", 13), ("RLIMIT_RTPRIO", 14), ("RLIMIT_RTTIME", 15)]

/-- Socket options: level, name, number (`include/uapi/linux/in.h`, `asm-generic/socket.h`). -/
def kernelSockopts : List (Nat × String × Nat) :=
  [(0, "IP_TOS", 1), (0, "IP_TTL", 2), (0, "IP_HDRINCL", 3), (0, "IP_RECVTOS", 13), (0, "IP_FREEBIND", 15),
   (1, "SO_DEBUG", 1), (1, "SO_REUSEADDR", 2), (1, "SO_TYPE", 3), (1, "SO_ERROR", 4), (1, "SO_KEEPALIVE", 9), (1, "SO_RCVTIMEO", 20),
   (1, "SO_SNDTIMEO", 21)]

/-- The types of sockets (`include/linux/net.h`). -/
def kernelSockTypes : List (String × Nat) :=
  [("SOCK_STREAM", 1), ("SOCK_DGRAM", 2), ("SOCK_RAW", 3), ("SOCK_RDM", 4), ("SOCK_SEQPACKET", 5), ("SOCK_DCCP", 6), ("SOCK_PACKET", 10)]

/-- Arguments that hold the name of a file. -/
def fileArguments : List String := ["filename", "pathname", "path", "oldname", "newname", "old", "new"]

/-- The arguments with a text of their own, by system call and name. All others are shown by their type. -/
def specialArguments : List (String × String) :=
  [("lseek", "origin"), ("futex", "op"), ("fcntl", "cmd"), ("ipc", "call"), ("socket", "domain"), ("socket", "protocol"), ("socket", "type"),
   ("getsockopt", "level"), ("getsockopt", "optname"), ("setsockopt", "level"), ("setsockopt", "optname"), ("setsockopt", "optval"),
   ("getrlimit", "resource"), ("setrlimit", "resource"), ("sigprocmask", "how"), ("rt_sigprocmask", "how"), ("access", "mode"),
   ("open", "flags"), ("open", "mode"), ("openat", "dirfd"), ("openat", "flags"), ("openat", "mode"), ("name_to_handle_at", "dirfd"),
   ("mmap", "prot"), ("mmap2", "prot"), ("clone", "flags"), ("execve", "argv"), ("execve", "envp"), ("socketcall", "call"),
   ("socketcall", "args"), ("write", "buf")]

/-- What follows the text of a pointed-to value: nothing, or its address. -/
def AddressSuffix (write : Bool) (address : Nat) (rest : Str) : Prop :=
  if write then ∃ u, rest = " at ".toList ++ u ∧ hexLiteral u = some address else rest = []

end PT.Spec
