import Mathlib.Data.List.Forall2
import Verif.Spec.Ints
import Verif.Spec.Text

/-! Independent specification of what the kernel prints below `/proc` and of what should be read from it. -/

namespace PT.Spec

/-- The facts about Python's white space characters that are used. -/
structure PySpace (space : Char → Bool) : Prop where
  blank : space ' ' = true
  newline : space '\n' = true
  printable : ∀ c : Char, '!' ≤ c → c ≤ '~' → space c = false

/-- Decimal text of an integer. -/
def IsInt (t : List Char) (n : Int) : Prop :=
  (∃ m : Nat, decNumber t = some m ∧ n = m) ∨ (∃ (m : Nat) (u : List Char), t = '-' :: u ∧ decNumber u = some m ∧ n = -m)

/-- Reading a file in text mode: `\r` and `\r\n` become `\n`, everything else is kept. -/
inductive Translated : List Char → List Char → Prop where
  | nil : Translated [] []
  | pair {t u} : Translated t u → Translated ('\r' :: '\n' :: t) ('\n' :: u)
  | ret {t u} : t.head? ≠ some '\n' → Translated t u → Translated ('\r' :: t) ('\n' :: u)
  | keep {c t u} : c ≠ '\r' → Translated t u → Translated (c :: t) (c :: u)

/-- The fields of `/proc/pid/stat` up to the start time, in the order of proc(5). -/
structure KStat where
  pid : Nat
  comm : List Char
  state : Char
  ppid : Int
  pgrp : Int
  session : Int
  tty_nr : Int
  tpgid : Int
  flags : Int
  minflt : Int
  cminflt : Int
  majflt : Int
  cmajflt : Int
  utime : Int
  stime : Int
  cutime : Int
  cstime : Int
  priority : Int
  nice : Int
  num_threads : Int
  itrealvalue : Int
  starttime : Int
  rest : List Int

/-- The numbers after the state. -/
def KStat.numbers (k : KStat) : List Int :=
  [k.ppid, k.pgrp, k.session, k.tty_nr, k.tpgid, k.flags, k.minflt, k.cminflt, k.majflt, k.cmajflt, k.utime, k.stime,
   k.cutime, k.cstime, k.priority, k.nice, k.num_threads, k.itrealvalue, k.starttime] ++ k.rest

/-- `t` is the line `pid (comm) state number number ...`. -/
def StatLine (k : KStat) (t : List Char) : Prop :=
  k.state ∈ "RSDTtZXxKWPI".toList ∧
  ∃ (p : List Char) (texts : List (List Char)), IsInt p k.pid ∧ List.Forall₂ IsInt texts k.numbers ∧
    t = p ++ ' ' :: '(' :: (k.comm ++ ')' :: ' ' :: k.state :: (texts.flatMap (' ' :: ·) ++ ['\n']))

/-- `t` is the strings, each followed by a NUL character. -/
def NulList (l : List (List Char)) (t : List Char) : Prop :=
  (∀ s ∈ l, '\x00' ∉ s) ∧ t = l.flatMap (· ++ ['\x00'])

/-- A memory mapping, as the kernel prints it. -/
structure KMap where
  start : Nat
  stop : Nat
  perms : List Char
  offset : Nat
  major : Nat
  minor : Nat
  inode : Nat
  path : Option (List Char)

/-- The part of a line of `/proc/pid/maps` before the path. -/
def MapHead (k : KMap) (t : List Char) : Prop :=
  k.perms.length = 4 ∧ '\n' ∉ k.perms ∧
  ∃ a b c d e f : List Char, hexNumber a = some k.start ∧ hexNumber b = some k.stop ∧ hexNumber c = some k.offset ∧
    hexNumber d = some k.major ∧ hexNumber e = some k.minor ∧ decNumber f = some k.inode ∧
    (d.length = 2 ∨ d.length = 3) ∧ (e.length = 2 ∨ e.length = 3) ∧
    t = a ++ '-' :: (b ++ ' ' :: (k.perms ++ ' ' :: (c ++ ' ' :: (d ++ ':' :: (e ++ ' ' :: f)))))

/-- A line of `/proc/pid/maps`, without the newline. A path has no white space at its ends, and the kernel escapes
newlines inside. -/
def MapLine (space : Char → Bool) (k : KMap) (line : List Char) : Prop :=
  ∃ t, MapHead k t ∧ match k.path with
    | none => ∃ n, line = t ++ List.replicate n ' '
    | some p => p ≠ [] ∧ '\n' ∉ p ∧ Stripped space p p ∧ ∃ n, line = t ++ ' ' :: (List.replicate n ' ' ++ p)

/-- The file: the lines, each ended by a newline. -/
def MapsFile (space : Char → Bool) (ks : List KMap) (t : List Char) : Prop :=
  ∃ lines, List.Forall₂ (MapLine space) ks lines ∧ t = lines.flatMap (· ++ ['\n'])

/-- The lines of a text; the last one need not be ended. -/
def FileLines (u : List Char) (lines : List (List Char)) : Prop :=
  (∀ l ∈ lines, '\n' ∉ l) ∧ (u = lines.flatMap (· ++ ['\n']) ∨
    ∃ init last, lines = init ++ [last] ∧ last ≠ [] ∧ u = init.flatMap (· ++ ['\n']) ++ last)

/-- `line` without white space at its end. -/
def RStripped (space : Char → Bool) (line y : List Char) : Prop :=
  (∃ b, line = y ++ b ∧ ∀ c ∈ b, space c = true) ∧ ∀ c, y.getLast? = some c → space c = false

/-- The line starts like a line of `/proc/pid/maps`. -/
def IsMapLine (line : List Char) : Prop := ∃ k t rest, MapHead k t ∧ line = t ++ rest

/-- What is shown of a variable: `name=value` with the value quoted. -/
def ShownVar (repr : List Char → List Char) (var text : List Char) : Prop :=
  ∃ name value, var = name ++ '=' :: value ∧ '=' ∉ name ∧ text = name ++ '=' :: repr value

/-- An entry of `/proc`: a process, or a name that is no number. -/
def Entry (name : List Char) : Option Int → Prop
  | some n => ∃ m : Nat, decNumber name = some m ∧ n = m
  | none => ∃ c ∈ name, 'a' ≤ c ∧ c ≤ 'z'

/-- The text before the first NUL character of a file that is not empty. -/
def FirstString (t w : List Char) : Prop := t ≠ [] ∧ '\x00' ∉ w ∧ (t = w ∨ ∃ r, t = w ++ '\x00' :: r)

/-- A program matches a name: it is the name, or a path that ends with it. -/
def Matches (name word : List Char) : Prop := word = name ∨ ∃ dir, word = dir ++ '/' :: name

end PT.Spec
