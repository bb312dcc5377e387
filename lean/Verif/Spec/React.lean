import Verif.Spec.Follow

/-! A program that reacts to the signals it is given, and what it does when nobody interferes. -/

namespace PT.Spec

/-- A program: where it stops next and with which registers, depending on what it was given each time it went on, so far. 0 is no signal. -/
abbrev Program := List Nat → Option (StatusKind × Nat)

/-- What the processes were given when they were told to go on. -/
def handed (log : List Entry) : List Nat := log.filterMap fun e => match e.call with
  | .syscall _ _ n => some n
  | _ => none

/-- The kernel runs the program in process `pid`, shows its registers, and refuses nothing. -/
structure Performs (K : Kern) (pid : Nat) (P : Program) : Prop where
  wait : ∀ log kind regs, P (handed log) = some (kind, regs) →
    ∃ st, K log (.waitpid (some pid) false false) = .ok pid st ∧ waitMeaning st = kind
  look : ∀ log kind regs o, P (handed log) = some (kind, regs) → ∃ st, K log (.inspect o pid) = .ok regs st
  accepts : ∀ log o n, (∃ v st, K log (.syscall o pid n) = .ok v st) ∧ (∃ v st, K log (.display o pid) = .ok v st) ∧
    (∃ v st, K log (.setoptions o pid n) = .ok v st) ∧ ∃ v st, K log (.attach o pid) = .ok v st

/-- What a process gets at each stop of a deed if nobody interferes: a signal that arrives, and nothing at the stops that a tracer causes. -/
def Deed.gets : Deed → List Nat
  | .call _ _ => [0, 0]
  | .exec _ _ => [0, 0, 0]
  | .signal signum _ => [signum]

/-- What a process gets from its first stop to its end. -/
def allGets (deeds : List Deed) (e : Ending) : List Nat :=
  0 :: (deeds.flatMap Deed.gets ++ (e.inside.map fun _ => 0).toList)

/-- Left alone, the program does these deeds and ends like this. -/
def Program.Does (P : Program) (events : Bool) (first : StatusKind × Nat) (deeds : List Deed) (e : Ending) : Prop :=
  ∀ i x, (allStops events first deeds e)[i]? = some x → P ((allGets deeds e).take i) = some x

end PT.Spec
