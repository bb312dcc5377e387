import Verif.Spec.GdbCmd

/-! What dumps of registers, stack, mappings and frames show. -/

namespace PT.Spec

/-- The line about a register: the name, at the right end of the column of names, and the value. -/
def RegLine (column : Nat) (name : Str) (value : Nat) (line : Str) : Prop :=
  ∃ pad hex, (∀ c ∈ pad, c = ' ') ∧ pad.length + name.length = column ∧ hexLiteral hex = some value ∧ line = pad ++ name ++ " = ".toList ++ hex

/-- The text of a distance: a sign and a number. -/
def SignedText (n : Int) (t : Str) : Prop :=
  ∃ d m, decNumber d = some m ∧ ((t = '+' :: d ∧ n = m) ∨ (t = '-' :: d ∧ n = -m ∧ m ≠ 0))

/-- The line about a word of the stack: its distance from the stack pointer and its value. -/
def StackLine (distance : Int) (value : Nat) (line : Str) : Prop :=
  ∃ pad num hex, (∀ c ∈ pad, c = ' ') ∧ SignedText distance num ∧ hexLiteral hex = some value ∧
    line = "STACK".toList ++ pad ++ num ++ ": ".toList ++ hex

/-- The lines about the words at the distances, where those that cannot be read are left out. -/
inductive StackLines (word : Int → Option Nat) : List Int → List Str → Prop where
  | nil : StackLines word [] []
  | shown {d : Int} {ds : List Int} {v : Nat} {line : Str} {lines : List Str} (h : word d = some v) (hl : StackLine d v line)
      (hr : StackLines word ds lines) : StackLines word (d :: ds) (line :: lines)
  | skipped {d : Int} {ds : List Int} {lines : List Str} (h : word d = none) (hr : StackLines word ds lines) : StackLines word (d :: ds) lines

/-- The five words below the stack pointer, the word at it and the five words above it. -/
def aroundStack (w : Nat) : List Int := (List.range 11).map fun (i : Nat) => ((i : Int) - 5) * w

/-- The line about a frame: the instruction pointer and the arguments. -/
def FrameLine (ip : Nat) (arguments : List Nat) (line : Str) : Prop :=
  ∃ t texts, AddressText ip t ∧ List.Forall₂ (fun v u => hexLiteral u = some v) arguments texts ∧
    line = "IP=".toList ++ t ++ ": ??? (".toList ++ (", ".toList).intercalate texts ++ [')']

/-- The line about a mapping. -/
def MapsLine (m : Mapping) (line : Str) : Prop := ∃ t, MappingText m t ∧ line = "MAPS: ".toList ++ t

end PT.Spec
