import Verif.Model.Text

/-
Model of `minmax` and `locateProgram` (`ptrace/tools.py`), of `changeLogLevel` (`ptrace/logging_tools.py`) and of the functions of
`os.path` that they use (POSIX).
-/

namespace PT

/-- `minmax` (`tools.py:131-142`). -/
def minmax (minValue value maxValue : Int) : Int := min (max minValue value) maxValue

/-- `DEBUG`, `ERROR` of the module `logging`. -/
def DEBUG : Int := 10
def ERROR : Int := 40

/-- `changeLogLevel` (`logging_tools.py:22-31`). -/
def changeLogLevel (level delta : Int) : Int := minmax DEBUG (level + delta * 10) ERROR

/-- `os.path.isabs` -/
def isAbs (p : Str) : Bool := p.head? == some '/'

/-- `os.path.dirname`: the text up to the last slash; trailing slashes are removed unless there is nothing else. -/
def dirName (p : Str) : Str :=
  let head := (p.reverse.dropWhile (· ≠ '/')).reverse
  if head ≠ [] ∧ head ≠ List.replicate head.length '/' then (head.reverse.dropWhile (· = '/')).reverse else head

/-- `os.path.join` with two arguments. -/
def pathJoin (a b : Str) : Str :=
  if b.head? = some '/' then b
  else if a = [] ∨ a.getLast? = some '/' then a ++ b
  else a ++ '/' :: b

/-- One step of the loop of `os.path.normpath`. -/
def normStep (slashes : Nat) (comps : List Str) (comp : Str) : List Str :=
  if comp = [] ∨ comp = ['.'] then comps
  else if comp ≠ ['.', '.'] ∨ (slashes = 0 ∧ comps = []) ∨ (comps ≠ [] ∧ comps.getLast? = some ['.', '.']) then comps ++ [comp]
  else comps.dropLast

/-- `os.path.normpath`. -/
def normPath (p : Str) : Str :=
  if p = [] then ['.']
  else
    let slashes := if p.head? = some '/' then (if (['/', '/'].isPrefixOf p) && !(['/', '/', '/'].isPrefixOf p) then 2 else 1) else 0
    let comps := (splitOn '/' p).foldl (normStep slashes) []
    let r := List.replicate slashes '/' ++ ['/'].intercalate comps
    if r = [] then ['.'] else r

/-- The loop of `locateProgram` (`tools.py:123-127`); `access` is `os.access(_, X_OK)`. -/
def searchPath (access : Str → Bool) (program : Str) : List Str → Str
  | [] => program
  | path :: paths => if access (pathJoin path program) then pathJoin path program else searchPath access program paths

/-- `locateProgram` (`tools.py:107-128`); `path` is `getenv('PATH')`, `pathsep` is a colon. -/
def locateProgram (cwd : Str) (path : Option Str) (access : Str → Bool) (program : Str) : Str :=
  if isAbs program then program
  else if dirName program ≠ [] then normPath (pathJoin cwd program)
  else match path with
    | none => program
    | some [] => program
    | some paths => searchPath access program (splitOn ':' paths)

end PT
