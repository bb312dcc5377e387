import Verif.Spec.Text
import Verif.Spec.GdbCmd

/-! What a header with declarations of system calls says. -/

namespace PT.Spec

/-- The second text is the first without the occurrences of a mark. -/
inductive Without (mark : Str) : Str → Str → Prop where
  | last {t : Str} (h : ¬ mark <:+: t) : Without mark t t
  | mark {t rest out : Str} (h : ¬ mark <:+: t) (hr : Without mark rest out) : Without mark (t ++ mark ++ rest) (t ++ out)

/-- A name of C. -/
def Identifier (n : Str) : Prop := n ≠ [] ∧ ∀ c ∈ n, c.isAlphanum = true ∨ c = '_'

/-- A parameter of a declaration: a type and a name, or a type alone. -/
inductive Declares : Str → Str → Str → Prop where
  | plain {ty name : Str} (hn : Identifier name) (hf : ty.head? ≠ some ' ') (hl : ∃ c, ty.getLast? = some c ∧ c ≠ ' ') : Declares (ty ++ ' ' :: name) ty name
  | pointer {ty name : Str} (hn : Identifier name) (hf : ty.head? ≠ some ' ') (hl : ty.getLast? = some '*') : Declares (ty ++ name) ty name
  | unnamed {ty : Str} (hf : ty.head? ≠ some ' ') (hl : ∃ c, ty.getLast? = some c ∧ c ≠ ' ') : Declares ty ty []

/-- White space of C: blank, tab, new line, carriage return, vertical tab, form feed. -/
def blankC (c : Char) : Bool := [9, 10, 11, 12, 13, 32].contains c.toNat

/-- What is written between the brackets of a declaration: `void`, or parameters between commas; white space and `__user` do not count. -/
def DeclaredArgs (raw : Str) (params : List (Str × Str)) : Prop :=
  ∃ bare ws, Without "__user".toList raw bare ∧ Words blankC bare ws ∧
    ((ws = ["void".toList] ∧ params = []) ∨
     (ws ≠ ["void".toList] ∧ ∃ items, Pieces ',' ([' '].intercalate ws) items ∧
       List.Forall₂ (fun item (p : Str × Str) => ∃ pre text, (pre = [] ∨ pre = [' ']) ∧ item = pre ++ text ∧ Declares text p.1 p.2) items params))

/-- A header: lines, and declarations of system calls that start at the beginning of a line. -/
inductive Header : Str → List (Str × Str) → Prop where
  | nil : Header [] []
  | other {line rest : Str} {ds : List (Str × Str)} (hl : '\n' ∉ line) (hno : ¬ "asmlinkage long sys".toList <+: line) (h : Header rest ds) :
      Header (line ++ '\n' :: rest) ds
  | decl {pre name args tail rest : Str} {ds : List (Str × Str)} (hp : pre = "_".toList ∨ pre = "32_".toList) (hn : '(' ∉ name) (ha : ')' ∉ args)
      (ht : '\n' ∉ tail) (h : Header rest ds) :
      Header ("asmlinkage long sys".toList ++ (pre ++ (name ++ '(' :: (args ++ ')' :: (tail ++ '\n' :: rest))))) ((name, args) :: ds)

/-- The entry of a parameter in the table; the argument of `pipe` is an array. -/
def tableParam (call : Str) (p : Str × Str) : Str × Str :=
  if (call = "pipe".toList ∨ call = "pipe2".toList) ∧ p.1 = "int *".toList then ("int[2]".toList, p.2) else p

/-- The last declaration of a name. -/
def LastOf {β : Type} (ds : List (Str × β)) (name : Str) (v : β) : Prop := ∃ before after, ds = before ++ (name, v) :: after ∧ ∀ e ∈ after, e.1 ≠ name

/-- Alphabetical order by code points: a proper beginning, or a smaller character at the first difference. -/
def Alphabetical (a b : Str) : Prop :=
  (∃ c u, b = a ++ c :: u) ∨ ∃ p x y u v, a = p ++ x :: u ∧ b = p ++ y :: v ∧ x.toNat < y.toNat

/-- The Python text of an entry. -/
def entryText (e : Str × List (Str × Str)) : List Str :=
  ["\"".toList ++ e.1 ++ "\": (\"long\", (".toList] ++ e.2.map (fun a => "    (\"".toList ++ a.1 ++ "\", \"".toList ++ a.2 ++ "\"),".toList) ++ [")),".toList]

end PT.Spec
