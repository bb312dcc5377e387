import Verif.Model.Gdb

/-
Model of `Gdb.runDebugger` and `Gdb.main` (`gdb.py:849-881`), once the options are read and the child exists. What the user types is a list of
inputs; at its end `raw_input` gives `EOFError`. The result is what was not read.
-/

namespace PT

/-- The loop of `runDebugger` (`gdb.py:864-871`). -/
def gdbLines (K : Kern) (fuel : Nat) (G : GdbCfg) : List Input → Py (Option Str × GSt) (List Input)
  | [] => fun s =>
    if length s.2.dbg = 0 then (.ok [], s)
    else Py.bind (gdbLoop K fuel G .eof) (fun _ => Py.pure []) s
  | input :: rest => fun s =>
    if length s.2.dbg = 0 then (.ok (input :: rest), s)
    else Py.bind (gdbLoop K fuel G input) (fun done => if done then Py.pure rest else gdbLines K fuel G rest) s

/-- `Gdb.runDebugger` (`gdb.py:849-871`). -/
def gdbRun (K : Kern) (fuel : Nat) (G : GdbCfg) (pid : Nat) (isAttached : Bool) (inputs : List Input) : Py DSt (List Input) :=
  Py.bind (createProcess K fuel pid isAttached) fun o =>
  match o with
  | none => Py.pure inputs
  | some o => fun s =>
    let (r, t) := gdbLines K fuel G inputs (none, ⟨s, o, fun _ => none⟩)
    (r, t.2.dbg)

/-- `Gdb.main` (`gdb.py:873-884`): a `KeyboardInterrupt` and every error of the library end the session; `none` is such an end. -/
def gdbMain (K : Kern) (fuel : Nat) (G : GdbCfg) (pid : Nat) (isAttached : Bool) (inputs : List Input) : Py DSt (Option (List Input)) :=
  fun s =>
  let (r, t) := gdbRun K fuel G pid isAttached inputs s
  Py.bind (match r with
    | .ok rest => Py.pure (some rest)
    | .error .diverge => Py.raise .diverge
    | .error _ => Py.pure none) (fun rest =>
  Py.bind (quit K fuel) fun _ => Py.pure rest) t

end PT
