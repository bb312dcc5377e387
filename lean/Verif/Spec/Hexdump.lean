import Verif.Model.Hexdump
import Verif.Spec.Memory

/-! What `hexdump` has to print. -/

namespace PT.Spec

/-- A piece of the dump: bytes that were read, or a range that could not be read. -/
inductive Item where
  | row (address : Nat) (bytes : Bytes)
  | gap (start stop : Nat)

/-- The addresses an item speaks about. -/
def Item.extent : Item → Nat × Nat
  | .row a bs => (a, a + bs.length)
  | .gap a b => (a, b)

/-- The rows from `a` to `b` (all of them, at least one) could not be read. -/
inductive Unreadable {σ : Type} (read : Nat → Nat → Py σ Bytes) (width stop : Nat) : Nat → σ → Nat → σ → Prop where
  | one {a : Nat} {s t : σ} {e : Option Nat} (lt : a < stop)
      (h : read a (min (stop - a) width) s = (.error (.ptrace e), t)) :
      Unreadable read width stop a s (a + min (stop - a) width) t
  | more {a b : Nat} {s t u : σ} {e : Option Nat} (lt : a < stop)
      (h : read a (min (stop - a) width) s = (.error (.ptrace e), t))
      (rest : Unreadable read width stop (a + min (stop - a) width) t b u) : Unreadable read width stop a s b u

/-- The dump from `a` to `stop`, row by row: each row is read once and shown, adjacent unreadable rows are one
gap. -/
inductive Dump {σ : Type} (read : Nat → Nat → Py σ Bytes) (width stop : Nat) : Nat → σ → List Item → σ → Prop where
  | done {a : Nat} (s : σ) (h : stop ≤ a) : Dump read width stop a s [] s
  | row {a : Nat} {s t u : σ} {bytes : Bytes} {items : List Item} (lt : a < stop)
      (h : read a (min (stop - a) width) s = (.ok bytes, t))
      (rest : Dump read width stop (a + min (stop - a) width) t items u) :
      Dump read width stop a s (.row a bytes :: items) u
  | gap {a b : Nat} {s t u : σ} {items : List Item} (h : Unreadable read width stop a s b t)
      (maximal : ∀ c d, items.head? ≠ some (.gap c d)) (rest : Dump read width stop b t items u) :
      Dump read width stop a s (.gap a b :: items) u

/-- A hexadecimal digit. -/
def hexChar (n : Nat) : Char := "0123456789abcdef".toList.getD n '?'

/-- The column of hexadecimal digits: two per byte, spaces elsewhere. -/
def HexColumn (width : Nat) (bytes : Bytes) (text : Str) : Prop :=
  text.length = max (width * 3 - 1) (bytes.length * 3 - 1) ∧
  (∀ i (h : i < bytes.length), text[3 * i]? = some (hexChar (bytes[i].val / 16)) ∧
    text[3 * i + 1]? = some (hexChar (bytes[i].val % 16))) ∧
  ∀ j, j < text.length → (j % 3 = 2 ∨ bytes.length * 3 ≤ j) → text[j]? = some ' '

/-- The column of characters: printable ASCII characters, dots for the others. -/
def TextColumn (width : Nat) (bytes : Bytes) (text : Str) : Prop :=
  text.length = max width bytes.length ∧
  (∀ i (h : i < bytes.length), text[i]? = some (if bytes[i].val ∈ List.range' 32 95 then Char.ofNat bytes[i].val else '.')) ∧
  ∀ j, j < text.length → bytes.length ≤ j → text[j]? = some ' '

/-- The printed form of an item. -/
inductive Shown (a : Arch) (width : Nat) : Item → DumpOut → Prop where
  | row {address : Nat} {bytes : Bytes} {hexa ascii : Str} (h1 : HexColumn width bytes hexa) (h2 : TextColumn width bytes ascii) :
      Shown a width (.row address bytes) (.line (formatAddress a address) hexa ascii)
  | gap (p q : Nat) : Shown a width (.gap p q) (.unreadable (formatAddressRange a p q))

/-- The ranges follow each other without holes and overlaps, from `a` to `b`. -/
inductive Tiles : Nat → List (Nat × Nat) → Nat → Prop where
  | nil (a : Nat) : Tiles a [] a
  | cons {a b c : Nat} {rs : List (Nat × Nat)} (lt : a < b) (h : Tiles b rs c) : Tiles a ((a, b) :: rs) c

end PT.Spec
