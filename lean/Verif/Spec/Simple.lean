import Verif.Spec.Quit

/-! A debugger of one process that lets it run to its next stop and leaves it. -/

namespace PT.Spec

/-- The kernel lets process `pid` make these stops, one each time it is waited for, and refuses nothing but perhaps the registers. -/
structure Meets (K : Kern) (pid : Nat) (stops : List StatusKind) : Prop where
  wait : ∀ log k, stops[waits pid (log.map Entry.call)]? = some k →
    ∃ st, K log (.waitpid (some pid) false false) = .ok pid st ∧ waitMeaning st = k
  accepts : ∀ log o n, (∃ v st, K log (.attach o pid) = .ok v st) ∧ (∃ v st, K log (.setoptions o pid n) = .ok v st) ∧
    (∃ v st, K log (.cont o pid n) = .ok v st) ∧ (∃ v st, K log (.kill o pid n) = .ok v st) ∧ ∃ v st, K log (.detach o pid) = .ok v st
  looks : ∀ log o, K log (.inspect o pid) ≠ .interrupt

/-- What the process does next. -/
inductive Happens where
  /-- it ends -/
  | ends (kind : StatusKind)
  /-- a signal stops it; when it is killed then, it stops with the signals `pending` and ends as `last` says -/
  | stops (signum : Nat) (pending : List Nat) (last : StatusKind)

/-- The stops after the first one. -/
def Happens.list : Happens → List StatusKind
  | .ends kind => [kind]
  | .stops signum pending last => .signal signum :: (pending.map StatusKind.signal ++ [last])

/-- How it ends. -/
def Happens.last : Happens → StatusKind
  | .ends kind => kind
  | .stops _ _ last => last

/-- The event that the user is told about. -/
def Happens.Told : Happens → Event → Prop
  | .ends (.exited c), e => e = .exit 0 none (some c)
  | .ends (.killed n), e => e = .exit 0 (some n) none
  | .ends _, _ => False
  | .stops n _ _, e => e = .signal 0 n

/-- All requests: take hold of the process, look at it, let it go on, wait, and leave it, if it is still there. -/
def Happens.requests (pid : Nat) (created : Bool) (h : Happens) : List Call :=
  (if created then [] else [.attach 0 pid]) ++
    [.waitpid (some pid) false false, .setoptions 0 pid 1, .inspect 0 pid, .cont 0 pid 0, .waitpid (some pid) false false] ++
    match h with
    | .ends _ => []
    | .stops _ pending _ =>
      if created then
        .cont 0 pid 9 :: (pending.flatMap (fun n => [.waitpid (some pid) false false, .cont 0 pid (if n = 5 ∨ n = 19 then 0 else n)]) ++
          [.waitpid (some pid) false false])
      else [.detach 0 pid]

end PT.Spec
