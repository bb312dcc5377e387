import Verif.Model.Fault
import Verif.Spec.GdbCmd

/-! The text about a signal. -/

namespace PT.Spec

/-- The text of an address that may be negative. -/
def IntText (n : Int) (t : Str) : Prop :=
  (0 ≤ n → AddressText n.toNat t) ∧ (n < 0 → ∃ ds, hexNumber ds = some n.natAbs ∧ t = "0x-".toList ++ ds)

/-- What a kind of access is called, and the word before its address. -/
def accessWords : FaultKind → Str × Str
  | .read => ("Invalid read".toList, " from ".toList)
  | .write => ("Invalid write".toList, " to ".toList)
  | _ => ("Invalid memory access".toList, " to ".toList)

/-- What programs call a kind of access. -/
def accessId : FaultKind → Str
  | .read => "invalid_read".toList
  | .write => "invalid_write".toList
  | _ => "invalid_mem_access".toList

/-- The message about an access. -/
def AccessMessage (kind : FaultKind) (address : Option Int) (size : Option Nat) (t : Str) : Prop :=
  ∃ place bytes, t = (accessWords kind).1 ++ place ++ bytes ∧
    (address = none → place = []) ∧ (∀ x, address = some x → ∃ u, IntText x u ∧ place = (accessWords kind).2 ++ u) ∧
    (size = none → bytes = []) ∧ (∀ n, size = some n → ∃ num, decNumber num = some n ∧ bytes = " (size=".toList ++ num ++ " bytes)".toList)

/-- The line about a place of `size` bytes and a mapping. -/
def PlaceLine (address : Int) (size : Nat) (mapping : Option Mapping) (line : Str) : Prop :=
  ∃ place rest, line = "- mapping: ".toList ++ place ++ rest ∧
    (size ≤ 1 → IntText address place) ∧
    (1 < size → ∃ first last, IntText address first ∧ IntText (address + (size - 1 : Nat)) last ∧ place = first ++ "..".toList ++ last) ∧
    (mapping = none → rest = " is not mapped in memory".toList) ∧ (∀ m, mapping = some m → ∃ t, MappingText m t ∧ rest = " is part of ".toList ++ t)

/-- The line about a register. -/
def RegisterLine (name : Str) (value : Nat) (line : Str) : Prop :=
  ∃ t, hexLiteral t = some value ∧ line = "- register ".toList ++ name ++ ['='] ++ t

end PT.Spec
