import Verif.Model.Memory
import Verif.Model.Proc
import Verif.Model.Signals

/-
Model of the text of syscall arguments and results: `readBits` and `formatBits` (`ptrace/tools.py`),
`ptrace/syscall/posix_arg.py`, `iterBits`, `readBits`, `readCStringArray` and the sets of `formatValuePointer`
(`ptrace/syscall/syscall_argument.py`), the result text of `PtraceSyscall.exit` (`ptrace/syscall/ptrace_syscall.py`),
`FunctionCall.format` (`ptrace/func_call.py`) and `FunctionArgument.format` (`ptrace/func_arg.py`).
Values are registers, so natural numbers.
-/

namespace PT

/-- `value & ~mask` for natural numbers: the bits of the mask are cleared. -/
def clearBits (value mask : Nat) : Nat := value ^^^ (value &&& mask)

/-- `readBits` (`ptrace/tools.py:26-49`). -/
def readBits : Nat → List (Nat × Str) → List Str
  | value, [] => if value ≠ 0 then [pyDec value] else []
  | value, (mask, item) :: bitmasks =>
    if value &&& mask = 0 then readBits value bitmasks else item :: readBits (clearBits value mask) bitmasks

/-- `"|".join(texts)` -/
def joinBar (texts : List Str) : Str := ['|'].intercalate texts

/-- `formatBits` (`ptrace/tools.py:52-78`) with `format_value=str`. -/
def formatBits (value : Nat) (bitmasks : List (Nat × Str)) (emptyText : Option Str) : Str :=
  match readBits value bitmasks with
  | [] => match emptyText with
    | some (c :: t) => c :: t
    | _ => pyDec value
  | texts =>
    let text := joinBar texts
    if value ≠ 0 then '<' :: text ++ "> (".toList ++ pyDec value ++ [')'] else text

/-- `MMAP_PROT_BITMASK` (`posix_arg.py:6-12`). -/
def mmapProtBitmask : List (Nat × Str) :=
  [(1, "PROT_READ".toList), (2, "PROT_WRITE".toList), (4, "PROT_EXEC".toList), (0x01000000, "PROT_GROWSDOWN".toList),
   (0x02000000, "PROT_GROWSUP".toList)]

/-- `formatMmapProt` (`posix_arg.py:15-16`). -/
def formatMmapProt (value : Nat) : Str := formatBits value mmapProtBitmask (some "PROT_NONE".toList)

/-- `ACCESS_MODE_BITMASK` (`posix_arg.py:20-24`). -/
def accessModeBitmask : List (Nat × Str) := [(1, "X_OK".toList), (2, "W_OK".toList), (4, "R_OK".toList)]

/-- `formatAccessMode` (`posix_arg.py:27-28`). -/
def formatAccessMode (value : Nat) : Str := formatBits value accessModeBitmask (some "F_OK".toList)

/-- `OPEN_FLAGS_BITMASK` (`posix_arg.py:32-51`). -/
def openFlagsBitmask : List (Nat × Str) :=
  [(0o1, "O_WRONLY".toList), (0o2, "O_RDWR".toList), (0o100, "O_CREAT".toList), (0o200, "O_EXCL".toList),
   (0o400, "O_NOCTTY".toList), (0o1000, "O_TRUNC".toList), (0o2000, "O_APPEND".toList), (0o4000, "O_NONBLOCK".toList),
   (0o10000, "O_SYNC".toList), (0o20000, "O_ASYNC".toList), (0o40000, "O_DIRECT".toList), (0o100000, "O_LARGEFILE".toList),
   (0o200000, "O_DIRECTORY".toList), (0o400000, "O_NOFOLLOW".toList), (0o1000000, "O_NOATIME".toList),
   (0o2000000, "O_CLOEXEC".toList), (0o10000000, "O_PATH".toList), (0o20200000, "O_TMPFILE".toList)]

/-- Octal digits, most significant first, in front of `acc`. -/
def octDigits (n : Nat) (acc : Str) : Str :=
  if h : n < 8 then decDigit n :: acc
  else octDigits (n / 8) (decDigit (n % 8) :: acc)
termination_by n
decreasing_by omega

/-- Python's `oct(n)`. -/
def pyOct (n : Nat) : Str := '0' :: 'o' :: octDigits n []

/-- The list of names of `formatOpenFlags` (`posix_arg.py:56-60`). -/
def openFlagNames (value : Nat) : List Str :=
  let flags := readBits value openFlagsBitmask
  match flags with
  | first :: _ => if first = "O_WRONLY".toList ∨ first = "O_RDWR".toList then flags else "O_RDONLY".toList :: flags
  | [] => ["O_RDONLY".toList]

/-- `formatOpenFlags` (`posix_arg.py:54-65`). -/
def formatOpenFlags (value : Nat) : Str :=
  let text := joinBar (openFlagNames value)
  if value ≠ 0 then text ++ " (".toList ++ pyOct value ++ [')'] else text

/-- `OPEN_MODE_BITMASK` (`posix_arg.py:68-78`). -/
def openModeBitmask : List (Nat × Str) :=
  [(0o400, "S_IRUSR".toList), (0o200, "S_IWUSR".toList), (0o100, "S_IXUSR".toList), (0o40, "S_IRGRP".toList),
   (0o20, "S_IWGRP".toList), (0o10, "S_IXGRP".toList), (0o4, "S_IROTH".toList), (0o2, "S_IWOTH".toList), (0o1, "S_IXOTH".toList)]

/-- `formatOpenMode` (`posix_arg.py:81-90`). -/
def formatOpenMode (value : Nat) : Str :=
  let text := joinBar (readBits value openModeBitmask)
  if value ≠ 0 then pyOct value else text

/-- `CLONE_FLAGS_BITMASK` (`posix_arg.py:93-113`). -/
def cloneFlagsBitmask : List (Nat × Str) :=
  [(0x00000100, "CLONE_VM".toList), (0x00000200, "CLONE_FS".toList), (0x00000400, "CLONE_FILES".toList),
   (0x00000800, "CLONE_SIGHAND".toList), (0x00002000, "CLONE_PTRACE".toList), (0x00004000, "CLONE_VFORK".toList),
   (0x00008000, "CLONE_PARENT".toList), (0x00010000, "CLONE_THREAD".toList), (0x00020000, "CLONE_NEWNS".toList),
   (0x00040000, "CLONE_SYSVSEM".toList), (0x00080000, "CLONE_SETTLS".toList), (0x00100000, "CLONE_PARENT_SETTID".toList),
   (0x00200000, "CLONE_CHILD_CLEARTID".toList), (0x00400000, "CLONE_DETACHED".toList), (0x00800000, "CLONE_UNTRACED".toList),
   (0x01000000, "CLONE_CHILD_SETTID".toList), (0x02000000, "CLONE_STOPPED".toList), (0x04000000, "CLONE_NEWUTS".toList),
   (0x08000000, "CLONE_NEWIPC".toList)]

/-- The list of names of `formatCloneFlags` (`posix_arg.py:118-121`). -/
def cloneFlagNames (signames : List (Nat × Str)) (flags : Nat) : List Str :=
  let bits := readBits flags cloneFlagsBitmask
  let signum := flags &&& 0xFF
  if signum ≠ 0 then signalName signames signum :: bits else bits

/-- `formatCloneFlags` (`posix_arg.py:116-126`). -/
def formatCloneFlags (signames : List (Nat × Str)) (flags : Nat) : Str :=
  match cloneFlagNames signames flags with
  | [] => pyDec flags
  | bits => '<' :: joinBar bits ++ "> (".toList ++ pyDec flags ++ [')']

/-! ### Sets in memory -/

/-- `iterBits` (`syscall_argument.py:66-70`). -/
def iterBits (data : Bytes) : List Bool :=
  data.flatMap fun byte => (List.range 8).map fun index => (byte.val >>> index) &&& 1 == 1

/-- The list of `SyscallArgument.readBits` (`syscall_argument.py:195-196`). -/
def bitTexts (fmt : Nat → Str) (bytes : Bytes) : List Str :=
  (iterBits bytes).zipIdx.filterMap fun (bit, index) => if bit then some (fmt index) else none

/-- `formatPointer` (`func_arg.py:63-67`). -/
def formatPointer (a : Arch) (writeAddress : Bool) (value : Str) (address : Nat) : Str :=
  if writeAddress then value ++ " at ".toList ++ formatAddress a address else value

/-- `FD_SETSIZE` (`linux_constants.py:4`). -/
def FD_SETSIZE : Nat := 1024

/-- The text of an `fd_set *` (`syscall_argument.py:176-180`); the pointer is not NULL. -/
def formatFdSet {σ : Type} (a : Arch) (read : Nat → Nat → Py σ Bytes) (writeAddress : Bool) (address nfds : Nat) : Py σ Str :=
  Py.bind (read address (FD_SETSIZE / 8)) fun bytes =>
  let fds := (bitTexts pyDec bytes).filter fun x => decide (natOfDec x < nfds)
  Py.pure (formatPointer a writeAddress ('[' :: [' '].intercalate fds ++ [']']) address)

/-- The text of the `sigset_t *` of `rt_sigprocmask` (`syscall_argument.py:183-190`). -/
def formatSigset {σ : Type} (a : Arch) (signames : List (Nat × Str)) (read : Nat → Nat → Py σ Bytes) (writeAddress : Bool)
    (address sigsetsize : Nat) : Py σ Str :=
  Py.bind (read address (sigsetsize * 8 / 8)) fun bytes =>
  let sigs := bitTexts (fun key => signalName signames (key + 1)) bytes
  Py.pure (formatPointer a writeAddress ("<sigset=(".toList ++ [' '].intercalate sigs ++ ")>".toList) address)

/-! ### Results -/

/-- The result text of `PtraceSyscall.exit` (`ptrace_syscall.py:137-153`). `errorcode` is `errno.errorcode`, `strerror` is
`os.strerror`; `pointer` tells whether the result type ends with `*`. -/
def resultText (a : Arch) (errorcode : Nat → Option Str) (strerror : Nat → Str) (pointer : Bool) (uresult : Nat) : Str :=
  if pointer then formatAddress a uresult
  else
    let result := ulong2long a uresult
    match (if result < 0 then errorcode (-result).toNat else none) with
    | some name => pyDecInt result ++ ' ' :: name ++ " (".toList ++ strerror (-result).toNat ++ [')']
    | none =>
      if ¬ (0 ≤ result ∧ result ≤ 9) then pyDecInt result ++ " (".toList ++ formatWordHex a uresult ++ [')']
      else pyDecInt result

/-! ### Calls -/

/-- `FunctionCallOptions` as far as text is concerned (`func_call.py:9-19`). -/
structure CallOptions where
  writeTypes : Bool
  writeArgname : Bool

/-- An argument: its type and name (empty text for `None`) and the text of `getText`. -/
structure CallArg where
  type : Str
  name : Str
  text : Str

/-- `FunctionArgument.format` (`func_arg.py:47-58`). -/
def argFormat (o : CallOptions) (g : CallArg) : Str :=
  if o.writeArgname = true ∧ g.name ≠ [] then
    if o.writeTypes = true ∧ g.type ≠ [] then g.type ++ ' ' :: g.name ++ '=' :: g.text else g.name ++ '=' :: g.text
  else if o.writeTypes = true ∧ g.type ≠ [] then '(' :: g.type ++ ')' :: g.text
  else g.text

/-- `while arguments and not arguments[-1]: arguments.pop(-1)` (`func_call.py:67-68`). -/
def dropEmpty (args : List Str) : List Str := (args.reverse.dropWhile (· = [])).reverse

/-- `FunctionCall.format` (`func_call.py:63-74`). -/
def callFormat (o : CallOptions) (restype name : Str) (args : List CallArg) : Str :=
  let arguments := (", ".toList).intercalate (dropEmpty (args.map (argFormat o)))
  if restype ≠ [] ∧ o.writeTypes = true then restype ++ ' ' :: name ++ '(' :: arguments ++ [')']
  else name ++ '(' :: arguments ++ [')']

/-! ### Arrays of strings -/

/-- The loop of `readCStringArray` (`syscall_argument.py:232-240`); `n` is `len(text)`. -/
def cstrArrayLoop {σ : Type} (a : Arch) (readWord : Nat → Py σ Nat) (cstr : Nat → Py σ Str) (maxCount : Nat) :
    Nat → Nat → Nat → Py σ (List Str)
  | 0, _, _ => Py.raise .diverge
  | fuel + 1, address, n =>
    Py.bind (readWord address) fun strAddr =>
    Py.bind (cstr strAddr) fun text =>
    if strAddr = 0 then Py.pure [text]
    else if maxCount ≤ n + 1 then Py.pure [text, "(... more than ".toList ++ pyDec maxCount ++ " strings ...)".toList]
    else Py.bind (cstrArrayLoop a readWord cstr maxCount fuel (address + a.W) (n + 1)) fun rest => Py.pure (text :: rest)

/-- `readCStringArray` (`syscall_argument.py:226-242`). -/
def readCStringArray {σ : Type} (a : Arch) (readWord : Nat → Py σ Nat) (cstr : Nat → Py σ Str) (writeAddress : Bool) (maxCount : Nat)
    (fuel address : Nat) : Py σ Str :=
  if address = 0 then Py.pure "NULL".toList
  else
    Py.bind (cstrArrayLoop a readWord cstr maxCount fuel address 0) fun texts =>
    Py.pure (formatPointer a writeAddress ("<(".toList ++ (", ".toList).intercalate texts ++ ")>".toList) address)

end PT
