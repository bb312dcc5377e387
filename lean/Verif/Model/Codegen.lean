import Verif.Model.Proc
import Verif.Model.ArgText
import Verif.Model.Dict

/-
Model of `SYSCALL_PROTOTYPES.codegen.py`, which makes the table of prototypes from a header of the kernel. The text of the header is
the argument; printing gives a list of lines. The two regular expressions are written out: each has only one way to match.
-/

namespace PT

/-- White space of `str.split` and `str.strip` (Python 2 byte strings). -/
def pySpace8 (c : Char) : Bool := c = ' ' || c = '\t' || c = '\n' || c = '\r' || c = Char.ofNat 11 || c = Char.ofNat 12

/-- `(.*?)c`: the text before the first `c`, and the text behind it. -/
def upTo (c : Char) : Str → Option (Str × Str)
  | [] => none
  | x :: s => if x = c then some ([], s) else (upTo c s).map fun r => (x :: r.1, r.2)

/-- `asmlinkage long sys(?:32)?_(.*?)\((.*?)\)` (`SYSCALL_PROTOTYPES.codegen.py:14-15`) at a given place: both groups and the text behind. -/
def matchDecl (s : Str) : Option (Str × Str × Str) :=
  match dropPrefix "asmlinkage long sys".toList s with
  | none => none
  | some s =>
    match dropPrefix ['_'] (withoutPrefix "32".toList s) with
    | none => none
    | some s =>
      match upTo '(' s with
      | none => none
      | some (name, s) => (upTo ')' s).map fun r => (name, r.1, r.2)

/-- `p1.finditer(source)` (`SYSCALL_PROTOTYPES.codegen.py:20-22`): `^` matches at the start of a line. The first argument is more than the
length of the text. -/
def findDecls : Nat → Bool → Str → List (Str × Str)
  | 0, _, _ => []
  | n + 1, start, s =>
    match (if start then matchDecl s else none) with
    | some (name, args, rest) => (name, args) :: findDecls n false rest
    | none =>
      match s with
      | [] => []
      | c :: s => findDecls n (c == '\n') s

/-- `text.replace(mark, "")`; the first argument is more than the length of the text. -/
def removeAll (mark : Str) : Nat → Str → Str
  | 0, _ => []
  | n + 1, s =>
    match dropPrefix mark s with
    | some rest => removeAll mark n rest
    | none =>
      match s with
      | [] => []
      | c :: s => c :: removeAll mark n s

/-- Lines 23-24. -/
def normalArgs (args : Str) : Str := [' '].intercalate (splitWs pySpace8 (removeAll "__user".toList (args.length + 1) args))

/-- `^(.*?)([^ *]+)$` (lines 16, 32). -/
def splitName (arg : Str) : Option (Str × Str) :=
  let name := (arg.reverse.takeWhile fun c => c != ' ' && c != '*').reverse
  if name = [] then none else some (arg.take (arg.length - name.length), name)

/-- One argument (lines 28-38); without a match `m2.group` raises `AttributeError`. -/
def codegenArg (call arg : Str) : Except Exc (Str × Str) :=
  let r : Except Exc (Str × Str) :=
    if ["*".toList, "long".toList, "int".toList, "size_t".toList].any fun e => e.isSuffixOf arg then .ok (strip pySpace8 arg, [])
    else match splitName arg with
      | none => .error .attribute
      | some (t, n) => .ok (strip pySpace8 t, strip pySpace8 n)
  match r with
  | .error e => .error e
  | .ok (t, n) =>
    if (call = "pipe".toList ∨ call = "pipe2".toList) ∧ t = "int *".toList then .ok ("int[2]".toList, n) else .ok (t, n)

/-- The arguments of a declaration (lines 23-38). -/
def codegenArgs (call args : Str) : Except Exc (List (Str × Str)) :=
  let args := normalArgs args
  if args = "void".toList then .ok [] else (splitOn ',' args).mapM (codegenArg call)

/-- The dictionary (lines 18-39). -/
def codegenTable : List (Str × Str) → List (Str × List (Str × Str)) → Except Exc (List (Str × List (Str × Str)))
  | [], d => .ok d
  | (call, args) :: rest, d =>
    match codegenArgs call args with
    | .error e => .error e
    | .ok t => codegenTable rest (dictSet d call t)

/-- Order of strings. -/
def strLt : Str → Str → Bool
  | _, [] => false
  | [], _ :: _ => true
  | a :: s, b :: t => if a.toNat < b.toNat then true else if b.toNat < a.toNat then false else strLt s t

/-- Insertion into a sorted list. -/
def insertName {β : Type} (x : Str × β) : List (Str × β) → List (Str × β)
  | [] => [x]
  | y :: ys => if strLt x.1 y.1 then x :: y :: ys else y :: insertName x ys

/-- `sorted(SYSCALL_PROTOTYPES)` (line 41), with the values. -/
def sortNames {β : Type} (l : List (Str × β)) : List (Str × β) := l.foldr insertName []

/-- The lines printed for one system call (lines 42-47). -/
def codegenEntry (e : Str × List (Str × Str)) : List Str :=
  ['"' :: e.1 ++ "\": (\"long\", (".toList] ++ e.2.map (fun a => "    (\"".toList ++ a.1 ++ "\", \"".toList ++ a.2 ++ "\"),".toList) ++ [")),".toList]

/-- The whole program. -/
def codegen (source : Str) : Except Exc (List Str) :=
  match codegenTable (findDecls (source.length + 1) true source) [] with
  | .error e => .error e
  | .ok d => .ok ((sortNames d).flatMap codegenEntry)

end PT
