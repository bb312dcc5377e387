import Verif.Spec.GdbCmd
import Verif.Spec.ArgText
import Verif.Spec.Repr

/-
Searching terms, and pointers to them, in the memory of processes.
-/

namespace PT.Spec

/-- The bytes of a word in memory. -/
def WordBytes (a : Arch) (v : Nat) (pat : Bytes) : Prop :=
  pat.length = a.W ∧ ∀ i (h : i < pat.length), pat[i].val = byteAt a.big a.W v i

/-- A list made of one part for every element of another list. -/
def Parts {α β : Type} (P : α → List β → Prop) (l : List α) (out : List β) : Prop :=
  ∃ parts : List (List β), List.Forall₂ P l parts ∧ out = parts.flatten

/-- What a search for pointers to `address` reports: a scan of each mapping for the bytes of the address. -/
def PointersTo (a : Arch) (mem : Nat → Byte) (maps : List Mapping) (address : Nat) (pointers : List Nat) : Prop :=
  ∃ pat, WordBytes a address pat ∧ Parts (fun m l => IsScan mem pat m.stop m.start l) maps pointers

/-- The line about an occurrence of a term: the term as a literal, the process, the mapping, the address and the pointers. -/
def XrayLine (term : Bytes) (pid : Nat) (m : Mapping) (address : Nat) (pointers : List Nat) (line : Str) : Prop :=
  ∃ lit num mtext atext ptexts, literal lit = some (term.map (·.val), []) ∧ decNumber num = some pid ∧ MappingText m mtext ∧
    AddressText address atext ∧ List.Forall₂ AddressText pointers ptexts ∧
    line = "term[b".toList ++ lit ++ "] pid[".toList ++ num ++ "] ".toList ++ mtext ++ [' '] ++ atext ++ " pointers: ".toList ++
      [' '].intercalate ptexts

/-- What `xray` reports about one term in one mapping: every occurrence that the scan of the mapping finds, each with the pointers to it. -/
def XrayMap (a : Arch) (mem : Nat → Byte) (maps : List Mapping) (term : Bytes) (pid : Nat) (m : Mapping) (lines : List Str) : Prop :=
  ∃ l, IsScan mem term m.stop m.start l ∧
    List.Forall₂ (fun address line => ∃ pointers, PointersTo a mem maps address pointers ∧ XrayLine term pid m address pointers line) l lines

/-- The report of `xray`: term by term, process by process, mapping by mapping. -/
def Xray (a : Arch) (mem : Nat → Nat → Byte) (maps : Nat → List Mapping) (pids : List Nat) (terms : List Bytes) (lines : List Str) : Prop :=
  Parts (fun term => Parts (fun pid => Parts (fun m => XrayMap a (mem pid) (maps pid) term pid m) (maps pid)) pids) terms lines

/-- A true line: the term occurs at the address, inside the mapping, and the pointers are words equal to the address. -/
def TrueLine (a : Arch) (mem : Nat → Nat → Byte) (maps : Nat → List Mapping) (pids : List Nat) (terms : List Bytes) (line : Str) : Prop :=
  ∃ term ∈ terms, ∃ pid ∈ pids, ∃ m ∈ maps pid, ∃ address pointers, XrayLine term pid m address pointers line ∧
    m.start ≤ address ∧ address + term.length ≤ m.stop ∧ Occurs (mem pid) term address ∧
    ∀ p ∈ pointers, IsUint a.big (mem pid) p a.W address ∧ ∃ m' ∈ maps pid, m'.start ≤ p ∧ p + a.W ≤ m'.stop

end PT.Spec
