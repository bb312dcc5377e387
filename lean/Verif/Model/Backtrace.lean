import Verif.Model.Ctypes

/-
Model of `ptrace/debugger/backtrace.py`. Registers and words are read by arbitrary operations of the process (`getInstrPointer`,
`getFramePointer`, `readWord`). The name of a frame is always "???" (lines 18) and is left out.
-/

namespace PT

/-- `BacktraceFrame` (`backtrace.py:6-19`). -/
structure BtFrame where
  ip : Nat
  arguments : List Nat
  deriving DecidableEq, Repr

/-- `Backtrace` (`backtrace.py:26-36`). -/
structure Backtrace where
  frames : List BtFrame
  truncated : Bool
  deriving DecidableEq, Repr

/-- `except PtraceError` -/
def Exc.isPtrace : Exc → Bool
  | .ptrace _ => true
  | _ => false

/-- The loop over the arguments in `getBacktraceFrame` (`backtrace.py:106-114`): `n` more arguments, `address` is the last address used. -/
def frameArguments {σ : Type} (a : Arch) (readWord : Nat → Py σ Nat) : Nat → Nat → List Nat → Py σ (List Nat)
  | 0, _, arguments => Py.pure arguments
  | n + 1, address, arguments => fun s =>
    match readWord (address + a.W) s with
    | (.ok word, s') => frameArguments a readWord n (address + a.W) (arguments ++ [word]) s'
    | (.error e, s') => if e.isPtrace then (.ok arguments, s') else (.error e, s')

/-- `getBacktraceFrame` (`backtrace.py:96-115`); `range(nargs)` is empty for a negative `nargs`. -/
def getBacktraceFrame {σ : Type} (a : Arch) (readWord : Nat → Py σ Nat) (ip fp : Nat) (nargs : Int) : Py σ BtFrame :=
  Py.bind (frameArguments a readWord nargs.toNat (fp + a.W) []) fun arguments => Py.pure ⟨ip, arguments⟩

/-- `try: nextfp = process.readWord(fp) except PtraceError: nextfp = None` (`backtrace.py:66-69`). -/
def readNextFp {σ : Type} (readWord : Nat → Py σ Nat) (fp : Nat) : Py σ (Option Nat) := fun s =>
  match readWord fp s with
  | (.ok n, s') => (.ok (some n), s')
  | (.error e, s') => if e.isPtrace then (.ok none, s') else (.error e, s')

/-- The guessed number of arguments (`backtrace.py:72-76`). -/
def guessArgs (a : Arch) (maxArgs : Int) (fp : Nat) (nextfp : Option Nat) : Int :=
  match nextfp with
  | none => 0
  | some next => if fp ≠ 0 ∧ next ≠ 0 then min (((next : Int) - fp) / a.W - 2) maxArgs else 0

/-- The loop of `getBacktrace` (`backtrace.py:59-93`); the first argument is `max_depth - depth`. -/
def backtraceLoop {σ : Type} (a : Arch) (readWord : Nat → Py σ Nat) (maxArgs : Int) : Nat → Nat → Nat → List BtFrame → Py σ Backtrace
  | 0, _, _, frames => Py.pure ⟨frames, true⟩
  | rest + 1, ip, fp, frames =>
    Py.bind (readNextFp readWord fp) fun nextfp =>
    Py.bind (getBacktraceFrame a readWord ip fp (guessArgs a maxArgs fp nextfp)) fun frame =>
    match nextfp with
    | none => Py.pure ⟨frames ++ [frame], false⟩
    | some 0 => Py.pure ⟨frames ++ [frame], false⟩
    | some (next + 1) =>
      Py.bind (readWord (fp + a.W)) fun ip' =>
      if ip' = a.maxUint then Py.pure ⟨frames ++ [frame], false⟩
      else backtraceLoop a readWord maxArgs rest ip' (next + 1) (frames ++ [frame])

/-- `getBacktrace` (`backtrace.py:45-93`). -/
def getBacktrace {σ : Type} (a : Arch) (getInstrPointer getFramePointer : Py σ Nat) (readWord : Nat → Py σ Nat) (maxArgs maxDepth : Int) :
    Py σ Backtrace :=
  Py.bind getInstrPointer fun ip =>
  Py.bind getFramePointer fun fp =>
  backtraceLoop a readWord maxArgs maxDepth.toNat ip fp []

end PT
