import Verif.Model.Ctypes
import Verif.Model.Text

/-
Model of the command `hexdump` of `gdb.py`. The functions it calls (`parseInteger`, `readBytes`) are
parameters. Printed lines are returned; what was printed before an exception is dropped.
-/

namespace PT

/-- What `hexdump` prints. -/
inductive DumpOut where
  /-- `"%s| %s| %s"` (`gdb.py:479`) -/
  | line (address hexa ascii : Str)
  /-- `"Warning: Unable to read memory %s"` (`gdb.py:474`, `489`) -/
  | unreadable (range : Str)
  /-- `"(limit to %s bytes)"` (`gdb.py:492`) -/
  | limit (n : Nat)
  deriving DecidableEq, Repr

/-- `formatAscii` (`gdb.py:95-104`). -/
def formatAscii (data : Bytes) : Str :=
  data.map fun b => if 32 ≤ b.val ∧ b.val ≤ 126 then Char.ofNat b.val else '.'

/-- `formatHexa` (`gdb.py:107-111`). -/
def formatHexa (data : Bytes) : Str := [' '].intercalate (data.map fun b => pyHexPad 2 b.val)

/-- Python's `text.ljust(width, ' ')`. -/
def ljust (width : Nat) (t : Str) : Str := t ++ List.replicate (width - t.length) ' '

/-- Width of a row (`gdb.py:431-432`). -/
def hexdumpWidth (a : Arch) (terminal : Nat) : Nat :=
  (max (((terminal : Int) - (formatAddress a 1).length - 3).fdiv 4) 1).toNat

/-- `warning(... formatAddressRange(*read_error))` if there is one (`gdb.py:473-475`, `488-490`). -/
def readErrorText (a : Arch) : Option (Nat × Nat) → List DumpOut
  | none => []
  | some (p, q) => [.unreadable (formatAddressRange a p q)]

/-- The loop of `hexdump` (`gdb.py:457-490`); `readError` is `read_error`. The fuel is the number of bytes to
dump, which is never short because a row has at least one byte. -/
def hexdumpLoop {σ : Type} (a : Arch) (read : Nat → Nat → Py σ Bytes) (width stop : Nat) :
    Nat → Nat → Option (Nat × Nat) → Py σ (List DumpOut)
  | 0, address, readError => fun s =>
    if address < stop then (.error .diverge, s) else (.ok (readErrorText a readError), s)
  | fuel + 1, address, readError => fun s =>
    if address < stop then
      let size := min (stop - address) width
      match read address size s with
      | (.ok memory, s') =>
        Py.bind (hexdumpLoop a read width stop fuel (address + size) none) (fun rest =>
          Py.pure (readErrorText a readError ++
            .line (formatAddress a address) (ljust (width * 3 - 1) (formatHexa memory)) (ljust width (formatAscii memory)) :: rest)) s'
      | (.error (.ptrace _), s') =>
        hexdumpLoop a read width stop fuel (address + size)
          (some (match readError with
            | none => (address, address + size)
            | some (p, _) => (p, address + size))) s'
      | (.error e, s') => (.error e, s')
    else (.ok (readErrorText a readError), s)

/-- `except ValueError as err: return str(err)`: the message is dropped. -/
def catchValue {σ α : Type} (m : Py σ (Option α)) : Py σ (Option α) := fun s =>
  match m s with
  | (.error .value, s') => (.ok none, s')
  | r => r

/-- `Gdb.hexdump` (`gdb.py:429-493`): `none` for an error message. -/
def hexdump {σ : Type} (a : Arch) (parse : Str → Py σ Nat) (read : Nat → Nat → Py σ Bytes) (terminal : Nat)
    (command : Str) : Py σ (Option (List DumpOut)) :=
  let width := hexdumpWidth a terminal
  match command.dropWhile (· ≠ ' ') with
  | _ :: second =>
    Py.bind (catchValue
      (Py.bind (parse (command.takeWhile (· ≠ ' '))) fun start =>
       Py.bind (parse second) fun stop =>
       if stop ≤ start then Py.raise .value else Py.pure (some (start, stop)))) fun r =>
    match r with
    | none => Py.pure none
    | some (start, stop) =>
      let size := stop - start
      let maxSize := width * 20
      if maxSize < size then
        Py.bind (hexdumpLoop a read width (start + maxSize) maxSize start none) fun outs =>
        Py.pure (some (outs ++ [.limit maxSize]))
      else
        Py.bind (hexdumpLoop a read width stop size start none) fun outs => Py.pure (some outs)
  | [] =>
    Py.bind (catchValue (Py.bind (parse command) fun start => Py.pure (some start))) fun r =>
    match r with
    | none => Py.pure none
    | some start =>
      Py.bind (hexdumpLoop a read width (start + 5 * width) (5 * width) start none) fun outs => Py.pure (some outs)

end PT
