import Verif.Model.Binding
import Verif.Model.Memory

/-
The loops of `PtraceProcess._readBytes` and `writeBytes` (`ptrace/debugger/process.py:504-541,594-640,706-710`) on top of the binding
(`Model/Binding`) in place of the kernel of `Model/Memory`: a process whose `/proc/pid/mem` could not be opened, so that `readBytes` is
`_readBytes` (`process.py:561-566`). `cp` tells whether the C extension is installed.
-/

namespace PT

/-- `readWord` (`process.py:538-541`). -/
def bindReadWord (m : BindEnv) (cp : Bool) (pid address : Nat) : Py BindSt Nat := peekWord m cp 1 pid address

/-- `writeWord` (`process.py:706-710`). -/
def bindWriteWord (m : BindEnv) (cp : Bool) (pid address word : Nat) : Py BindSt Unit := pokeWord m cp 4 pid address word

/-- The `while size:` loop of `_readBytes` (`process.py:522-536`). -/
def bindReadWords (m : BindEnv) (cp : Bool) (pid address size : Nat) (data : Bytes) : Py BindSt Bytes :=
  if _h : size = 0 then Py.pure data
  else
    Py.bind (bindReadWord m cp pid address) fun word =>
    Py.bind (liftE (word2bytes m.arch word)) fun bytes =>
    if size < m.arch.W then Py.pure (data ++ bytes.take size)
    else bindReadWords m cp pid (address + m.arch.W) (size - m.arch.W) (data ++ bytes)
termination_by size
decreasing_by
  have : 0 < m.arch.W := by unfold Arch.W; split <;> decide
  omega

/-- `_readBytes` (`process.py:504-536`). -/
def bindReadBytes (m : BindEnv) (cp : Bool) (pid address size : Nat) : Py BindSt Bytes :=
  let offset := address % m.arch.W
  if offset ≠ 0 then
    let address := address - offset
    Py.bind (bindReadWord m cp pid address) fun word =>
    Py.bind (liftE (word2bytes m.arch word)) fun bytes =>
    let subsize := min (m.arch.W - offset) size
    let data := slice bytes offset (offset + subsize)
    bindReadWords m cp pid (address + m.arch.W) (size - subsize) data
  else bindReadWords m cp pid address size []

/-- The words and the last part of a word (`process.py:622-640`). -/
def bindWriteWords (m : BindEnv) (cp : Bool) (pid address : Nat) (bytes : Bytes) : Py BindSt Unit :=
  if _h : m.arch.W ≤ bytes.length then
    Py.bind (liftE (bytes2word m.arch (bytes.take m.arch.W))) fun word =>
    Py.bind (bindWriteWord m cp pid address word) fun _ =>
    bindWriteWords m cp pid (address + m.arch.W) (bytes.drop m.arch.W)
  else if bytes = [] then Py.pure ()
  else
    let size := bytes.length
    Py.bind (bindReadBytes m cp pid address m.arch.W) fun word =>
    let word := bytes ++ word.drop size
    Py.bind (liftE (bytes2word m.arch word)) fun w =>
    bindWriteWord m cp pid address w
termination_by bytes.length
decreasing_by
  have : 0 < m.arch.W := by unfold Arch.W; split <;> decide
  simp only [List.length_drop]; omega

/-- `writeBytes` (`process.py:594-640`). -/
def bindWriteBytes (m : BindEnv) (cp : Bool) (pid address : Nat) (bytes : Bytes) : Py BindSt Unit :=
  let offset := address % m.arch.W
  if offset ≠ 0 then
    let address := address - offset
    let size := m.arch.W - offset
    Py.bind (bindReadBytes m cp pid address m.arch.W) fun word =>
    let (size, word) :=
      if bytes.length < size then
        let size := bytes.length
        (size, word.take offset ++ bytes.take size ++ word.drop (offset + size))
      else (size, word.take offset ++ bytes.take size)
    Py.bind (liftE (bytes2word m.arch word)) fun w =>
    Py.bind (bindWriteWord m cp pid address w) fun _ =>
    bindWriteWords m cp pid (address + m.arch.W) (bytes.drop size)
  else bindWriteWords m cp pid address bytes

end PT
