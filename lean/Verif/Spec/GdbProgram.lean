import Verif.Spec.Prompt

/-! How a session of gdb.py is left. -/

namespace PT.Spec

/-- The requests after a process was killed, until it has ended: the signals that stop it on its way are passed on, except 5 and 19. -/
inductive Dies (P : Story) (pid : Nat) : List Call → List Call → Prop
  | exited {made : List Call} (c : Nat) (h : P.stops made = some (.exited c)) : Dies P pid made [await pid]
  | killed {made : List Call} (n : Nat) (h : P.stops made = some (.killed n)) : Dies P pid made [await pid]
  | stops {made rest : List Call} (n : Nat) (h : P.stops made = some (.signal n))
      (hr : Dies P pid (made ++ [await pid, letGo pid (if n = 5 ∨ n = 19 then 0 else n)]) rest) :
      Dies P pid made (await pid :: letGo pid (if n = 5 ∨ n = 19 then 0 else n) :: rest)

/-- The request that kills a process. -/
def slay (pid : Nat) (stopped : Bool) : Call := if stopped then letGo pid 9 else .kill 0 pid 9

/-- The requests when the user leaves: a process that gdb.py has created is killed and awaited; one that was there before is released, and nothing else. -/
inductive Leaves (P : Story) (pid : Nat) (T : Table) : Bool → List Call → Prop
  | created {rest : List Call} (h : Dies P pid (T.made ++ [slay pid T.stopped]) rest) : Leaves P pid T true (slay pid T.stopped :: rest)
  | found : Leaves P pid T false [.detach 0 pid]

end PT.Spec
