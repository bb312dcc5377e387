import Verif.Spec.Proc

/-! Independent specification of bit masks, sets in memory and formatted calls. -/

namespace PT.Spec

/-- No bit belongs to two masks. -/
def DisjointMasks (table : List (Nat × List Char)) : Prop := table.Pairwise fun x y => x.1 &&& y.1 = 0

/-- Every mask is one bit, and no bit occurs twice. -/
def SingleBits (table : List (Nat × List Char)) : Prop :=
  (∀ e ∈ table, ∃ k, e.1 = 2 ^ k) ∧ table.Pairwise fun x y => x.1 ≠ y.1

/-- `r` is `v` without the bits of the masks. -/
def Rest (table : List (Nat × List Char)) (v r : Nat) : Prop :=
  ∀ i, r.testBit i = (v.testBit i && !table.any (fun e => e.1.testBit i))

/-- How a remaining number is shown: not at all if it is zero. -/
def RestText (r : Nat) (texts : List (List Char)) : Prop :=
  (r = 0 ∧ texts = []) ∨ (r ≠ 0 ∧ ∃ t, decNumber t = some r ∧ texts = [t])

/-- Value of a non-empty string of octal digits (Horner's rule). -/
def octNumber (s : List Char) : Option Nat :=
  if s = [] then none
  else s.foldl (fun acc c => match acc, (if '0' ≤ c ∧ c ≤ '7' then some (c.toNat - '0'.toNat) else none) with
    | some a, some d => some (8 * a + d)
    | _, _ => none) (some 0)

/-- Bit `i` of a set that the kernel keeps as an array of words of `W` bytes at `address`: bit `i % (8 W)` of
word `i / (8 W)`, whose bytes are in native order. -/
def inSet (big : Bool) (W : Nat) (mem : Nat → Nat) (address i : Nat) : Bool :=
  let j := i / (8 * W)
  let r := i % (8 * W)
  (mem (address + j * W + (if big then W - 1 - r / 8 else r / 8))).testBit (r % 8)

/-- The list without its trailing empty elements. -/
def TrailingDropped (args kept : List (List Char)) : Prop :=
  (∃ n, args = kept ++ List.replicate n []) ∧ kept.getLast? ≠ some []

/-- A text in a list of flags is correct for `v`: a constant all of whose bits are set, or the number of some bits of `v`. -/
def ShownFlag (kernel : List (List Char × Nat)) (v : Nat) (t : List Char) : Prop :=
  (∃ m, (t, m) ∈ kernel ∧ v &&& m = m) ∨ (∃ r, decNumber t = some r ∧ v &&& r = r)

/-- Constants of `mmap(2)`, `include/uapi/asm-generic/mman-common.h` of Linux. -/
def kernelProt : List (List Char × Nat) :=
  [("PROT_READ".toList, 0x1), ("PROT_WRITE".toList, 0x2), ("PROT_EXEC".toList, 0x4), ("PROT_GROWSDOWN".toList, 2 ^ 24),
   ("PROT_GROWSUP".toList, 2 ^ 25)]

/-- Constants of `access(2)`. -/
def kernelAccess : List (List Char × Nat) := [("R_OK".toList, 4), ("W_OK".toList, 2), ("X_OK".toList, 1)]

/-- Constants of `clone(2)`, `include/uapi/linux/sched.h` of Linux. -/
def kernelClone : List (List Char × Nat) :=
  [("CLONE_VM".toList, 2 ^ 8), ("CLONE_FS".toList, 2 ^ 9), ("CLONE_FILES".toList, 2 ^ 10), ("CLONE_SIGHAND".toList, 2 ^ 11),
   ("CLONE_PTRACE".toList, 2 ^ 13), ("CLONE_VFORK".toList, 2 ^ 14), ("CLONE_PARENT".toList, 2 ^ 15),
   ("CLONE_THREAD".toList, 2 ^ 16), ("CLONE_NEWNS".toList, 2 ^ 17), ("CLONE_SYSVSEM".toList, 2 ^ 18),
   ("CLONE_SETTLS".toList, 2 ^ 19), ("CLONE_PARENT_SETTID".toList, 2 ^ 20), ("CLONE_CHILD_CLEARTID".toList, 2 ^ 21),
   ("CLONE_DETACHED".toList, 2 ^ 22), ("CLONE_UNTRACED".toList, 2 ^ 23), ("CLONE_CHILD_SETTID".toList, 2 ^ 24),
   ("CLONE_STOPPED".toList, 2 ^ 25), ("CLONE_NEWUTS".toList, 2 ^ 26), ("CLONE_NEWIPC".toList, 2 ^ 27)]

/-- Constants of `open(2)`, `include/uapi/asm-generic/fcntl.h` of Linux (x86, RISC-V). -/
def kernelOpen : List (List Char × Nat) :=
  [("O_WRONLY".toList, 2 ^ 0), ("O_RDWR".toList, 2 ^ 1), ("O_CREAT".toList, 2 ^ 6), ("O_EXCL".toList, 2 ^ 7), ("O_NOCTTY".toList, 2 ^ 8),
   ("O_TRUNC".toList, 2 ^ 9), ("O_APPEND".toList, 2 ^ 10), ("O_NONBLOCK".toList, 2 ^ 11), ("O_SYNC".toList, 2 ^ 20 + 2 ^ 12),
   ("O_ASYNC".toList, 2 ^ 13), ("O_DIRECT".toList, 2 ^ 14), ("O_LARGEFILE".toList, 2 ^ 15), ("O_DIRECTORY".toList, 2 ^ 16),
   ("O_NOFOLLOW".toList, 2 ^ 17), ("O_NOATIME".toList, 2 ^ 18), ("O_CLOEXEC".toList, 2 ^ 19), ("O_PATH".toList, 2 ^ 21),
   ("O_TMPFILE".toList, 2 ^ 22 + 2 ^ 16)]

/-- The constants of `open(2)` that differ on ARM and AArch64, `arch/arm64/include/uapi/asm/fcntl.h` of Linux. -/
def kernelOpenArm : List (List Char × Nat) :=
  [("O_DIRECTORY".toList, 2 ^ 14), ("O_NOFOLLOW".toList, 2 ^ 15), ("O_DIRECT".toList, 2 ^ 16), ("O_LARGEFILE".toList, 2 ^ 17)]

/-- Value of a decimal number with an optional minus sign. -/
def decInt : List Char → Option Int
  | '-' :: t => (decNumber t).map fun (n : Nat) => -(n : Int)
  | t => (decNumber t).map fun (n : Nat) => (n : Int)

/-- How one argument is shown: its text, after its name and type as far as they are known and wanted. -/
def ArgShown (types names : Bool) (type name text shown : List Char) : Prop :=
  ∃ pre, shown = pre ++ text ∧
    ((types = false ∨ type = []) → (names = false ∨ name = []) → pre = []) ∧
    ((types = false ∨ type = []) → names = true → name ≠ [] → pre = name ++ ['=']) ∧
    (types = true → type ≠ [] → names = true → name ≠ [] → pre = type ++ ' ' :: name ++ ['=']) ∧
    (types = true → type ≠ [] → (names = false ∨ name = []) → pre = '(' :: type ++ [')'])

/-- The words at `address`, `address + W`, ... are the (non NULL) pointers `ptrs` and then NULL. -/
def PointerArray (W : Nat) (word : Nat → Nat) (address : Nat) (ptrs : List Nat) : Prop :=
  (∀ p ∈ ptrs, p ≠ 0) ∧ (∀ i (h : i < ptrs.length), word (address + i * W) = ptrs[i]) ∧ word (address + ptrs.length * W) = 0

end PT.Spec
