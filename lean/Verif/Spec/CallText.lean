import Verif.Spec.ArgText
import Verif.Spec.Call

/-! What the line of a system call has to show of the registers and the memory of the process. -/

namespace PT.Spec

/-- The register of the address of the next instruction, by the register of the number of a call. -/
def programCounters : List (String × String) := [("orig_rax", "rip"), ("orig_eax", "eip"), ("gpr0", "nip"), ("r8", "pc"), ("a7", "pc")]

/-- The name of call `n`: that of the table, else made of the number. -/
def CallNamed (tab : List (Nat × String)) (n : Nat) (name : String) : Prop :=
  (n, name) ∈ tab ∨ (∀ x, (n, x) ∉ tab) ∧ ∃ num, decNumber num = some n ∧ name.toList = "syscall<".toList ++ num ++ ['>']

/-- Arguments that the call may destroy before it returns, with their positions: the memory of `execve`, the sets of `select`, and the stack of
a `clone`. -/
def lostArguments : List (String × Nat) :=
  [("select", 1), ("select", 2), ("select", 3), ("execve", 0), ("execve", 1), ("execve", 2), ("clone", 0), ("clone", 1)]

/-- How texts of memory are shortened and annotated. -/
structure TextLimits where
  /-- the longest string -/
  stringMax : Nat
  /-- are addresses shown? -/
  address : Bool

/-- `t` shows an integer argument of the value `v`. -/
def IntegerText (W : Nat) (call type name : String) (v : Nat) (t : Str) : Prop :=
  ∀ kind, (type, kind) ∈ cTypes W → name ≠ "" → name ≠ "signum" → (call, name) ∉ specialArguments →
    (kind = .signed 32 ∨ type = "unsigned long" ∧ v < 2 ^ (8 * W) ∨ type ∈ ["unsigned int", "u32"] ∧ v < 2 ^ 32 ∨ v < 2 ^ 31) →
    ∃ r, kind.Is v r ∧ decInt t = some r

/-- `t` shows a constant of the kernel. The names left out are not known to the program (C88). -/
def ConstantText (call name : String) (v : Nat) (t : Str) : Prop :=
  ∀ l text, (call, name, l) ∈ kernelConstants → (text, v) ∈ l →
    text ∉ ["SEEK_DATA", "SEEK_HOLE", "F_GETLK", "F_SETLK", "F_SETLKW", "F_SETOWN", "F_GETOWN", "AF_UNIX", "AF_RDS", "AF_LLC", "IPPROTO_TCP",
      "IPPROTO_UDP", "IPPROTO_IPV6", "SOL_TCP", "RLIMIT_RTTIME"] → t = text.toList

/-- `t` shows the name of a file at address `v` of `mem`: the beginning of the C string, at most `stringMax` bytes of it; all of it without
dots. -/
def FileText (L : TextLimits) (mem : Nat → Byte) (type name : String) (v : Nat) (t : Str) : Prop :=
  name ∈ fileArguments → type ∈ ["const char *", "char *"] → v ≠ 0 →
    ∃ data dots rest, literalBytes t = some (data.map (·.val), dots ++ rest) ∧ AddressSuffix L.address v rest ∧ data.length ≤ L.stringMax ∧
      (∀ w, IsCString mem v w → data <+: w) ∧
      (dots = [] ∧ IsCString mem v data ∨ dots = "...".toList ∧ ∀ w, IsCString mem v w → 256 ≤ w.length ∨ L.stringMax ≤ 256)

/-- `t` shows the structure at address `v` of `mem`. -/
def StructText (L : TextLimits) (W : Nat) (big : Bool) (mem : Nat → Byte) (call type name : String) (v : Nat) (t : Str) : Prop :=
  ∀ struct, struct ∈ ["timeval", "timespec", "pollfd", "new_utsname"] → type = "struct " ++ struct ++ " *" → name ≠ "" → name ≠ "signum" →
    (call, name) ∉ specialArguments → v ≠ 0 →
    ∃ shown rest fields, t = shown ++ rest ∧ AddressSuffix L.address v rest ∧ (kernelStructs W).lookup struct = some fields ∧
      StructShown big mem v struct fields shown

/-- The call `name(text, ...)`: types and names of the arguments as asked for; empty texts at the end are left out. -/
def CallShown (types names : Bool) (restype name : String) (formats : List (String × String)) (texts : List Str) (text : Str) : Prop :=
  ∃ shown kept head, List.Forall₂ (fun (g : (String × String) × Str) t => ArgShown types names g.1.1.toList g.1.2.toList g.2 t) (formats.zip texts) shown ∧
    TrailingDropped shown kept ∧ text = head ++ name.toList ++ '(' :: (", ".toList).intercalate kept ++ [')'] ∧
    head = if types && restype ≠ "" then restype.toList ++ [' '] else []

end PT.Spec
