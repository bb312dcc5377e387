import Verif.Spec.Proc
import Verif.Spec.Format
import Verif.Model.ProcInfo

/-! What is to be read about sizes, times, states and users of processes. -/

namespace PT.Spec

/-- Numbers separated by blanks and ended by a newline. -/
def NumberLine (ns : List Nat) (t : Str) : Prop :=
  ∃ w ws n ns', ns = n :: ns' ∧ IsInt w n ∧ List.Forall₂ (fun (w : Str) (n : Nat) => IsInt w n) ws ns' ∧ t = w ++ ws.flatMap (' ' :: ·) ++ ['\n']

/-- The file `uptime`: seconds with two decimals since the boot, and the idle time. -/
def UptimeFile (hundredths : Nat) (t : Str) : Prop :=
  ∃ whole part rest n m, decNumber whole = some n ∧ decNumber part = some m ∧ part.length = 2 ∧ hundredths = 100 * n + m ∧
    t = whole ++ '.' :: part ++ ' ' :: rest

/-- The file `stat` of the system: some lines, the time of the boot, more lines. -/
def BootFile (seconds : Nat) (t : Str) : Prop :=
  ∃ before num after, decNumber num = some seconds ∧ (∀ l ∈ before, '\n' ∉ l ∧ ¬ "btime ".toList <+: l) ∧ (∀ l ∈ after, '\n' ∉ l) ∧
    t = (before ++ ("btime ".toList ++ num) :: after).flatMap (· ++ ['\n'])

/-- The letter of the state of a process that is stopped because it is traced (since Linux 2.6.33). -/
def tracingStop : Char := 't'

/-- The letter of the state of a process that was stopped by a signal. -/
def signalStop : Char := 'T'

/-- Names of states about which `linux_proc.py` and proc(5) agree. -/
def stateWords : List (Char × String) := [('R', "running"), ('S', "sleeping"), ('D', "disk"), ('Z', "zombie"), ('W', "paging")]

/-- The first lines: number, parent, and state. -/
def StateLines (pid : Nat) (k : KStat) (lines : List Str) : Prop :=
  ∃ num parent name, decNumber num = some pid ∧ decInt parent = some k.ppid ∧
    (∀ w, (k.state, w) ∈ stateWords → name = " (".toList ++ w.toList ++ [')']) ∧
    lines = ["Process ID: ".toList ++ num ++ " (parent: ".toList ++ parent ++ [')'], "Process state: ".toList ++ k.state :: name]

/-- The list of quoted strings. -/
def QuotedList (repr : Str → Str) (l : List Str) (t : Str) : Prop := t = '[' :: (", ".toList).intercalate (l.map repr) ++ [']']

/-- Identifiers of a user or of a group: real, effective, saved, of the file system. -/
structure KIds where
  real : Nat
  effective : Nat
  saved : Nat
  fs : Nat

/-- A line of `status` with identifiers. -/
def IdsLine (key : Str) (k : KIds) (line : Str) : Prop :=
  ∃ a b c d, decNumber a = some k.real ∧ decNumber b = some k.effective ∧ decNumber c = some k.saved ∧ decNumber d = some k.fs ∧
    line = key ++ ":\t".toList ++ a ++ '\t' :: b ++ '\t' :: c ++ '\t' :: d

/-- The file `status`: one line with the users and later one with the groups. -/
def StatusFile (user group : KIds) (t : Str) : Prop :=
  ∃ l1 u l2 g l3, IdsLine "Uid".toList user u ∧ IdsLine "Gid".toList group g ∧
    (∀ l, (l ∈ l1 ∨ l ∈ l2 ∨ l ∈ l3) → '\n' ∉ l ∧ '\r' ∉ l ∧ ¬ "Uid:".toList <+: l ∧ ¬ "Gid:".toList <+: l) ∧
    t = (l1 ++ u :: l2 ++ g :: l3).flatMap (· ++ ['\n'])

/-- What is shown of identifiers: the real one, and the effective one if it differs. -/
def IdsText (title : Str) (k : KIds) (line : Str) : Prop :=
  ∃ a, decNumber a = some k.real ∧
    ((k.real = k.effective ∧ line = title ++ " identifier: ".toList ++ a) ∨
     (k.real ≠ k.effective ∧ ∃ b, decNumber b = some k.effective ∧ line = title ++ " identifier: ".toList ++ a ++ " (effective: ".toList ++ b ++ [')']))

end PT.Spec
