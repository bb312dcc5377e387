import Verif.Model.Syscall

/-! What the reports of system calls must look like. -/

namespace PT.Spec

/-- `b` is the report of the end of the call whose start was reported as `a`: both are ignored, or both
are the same object, made from the same registers, without result at the start and with a result at
the end. -/
def StartEnd : Option SysObj → Option SysObj → Prop
  | none, none => True
  | some x, some y => y.ident = x.ident ∧ y.entry = x.entry ∧ x.result = none ∧ y.result.isSome = true
  | _, _ => False

/-- A start is ignored or reported without result. -/
def Start : Option SysObj → Prop
  | none => True
  | some x => x.result = none

/-- The reports are start, end, start, end, ...; the flag tells that the last one is a start. Each start
is a new object. -/
inductive Alternate : Bool → List (Option SysObj) → Prop where
  | nil : Alternate false []
  | start {rs : List (Option SysObj)} {a : Option SysObj} (h : Alternate false rs) (ha : Start a)
      (new : ∀ x y, a = some x → some y ∈ rs → y.ident ≠ x.ident) : Alternate true (rs ++ [a])
  | finish {rs : List (Option SysObj)} {a b : Option SysObj} (h : Alternate true (rs ++ [a]))
      (hb : StartEnd a b) : Alternate false (rs ++ [a] ++ [b])

/-- A history seen from object `o`: calls to the debugger, syscall events of `o` and of other objects,
and assignments of the callback, in any order; the reports for `o` are collected. The caller goes on
after exceptions. -/
inductive SysTrace (K : Kern) (C : SysCfg) (o : Nat) (s : DSt) : List (Option SysObj) → DSt → Prop where
  | nil : SysTrace K C o s [] s
  | call {rs : List (Option SysObj)} {t : DSt} (h : SysTrace K C o s rs t) (fuel : Nat) (op : Op) :
      SysTrace K C o s rs (runOp K fuel op t).2
  | other {rs : List (Option SysObj)} {t : DSt} (h : SysTrace K C o s rs t) (fuel q : Nat) (hq : q ≠ o) :
      SysTrace K C o s rs (sysEvent K fuel C q t).2
  | callback {rs : List (Option SysObj)} {t : DSt} (h : SysTrace K C o s rs t) (q : Nat) (b : Bool) :
      SysTrace K C o s rs (updSys q (fun ss => { ss with hasCallback := b }) t).2
  | report {rs : List (Option SysObj)} {t u : DSt} {r : Option SysObj} (h : SysTrace K C o s rs t) (fuel : Nat)
      (hr : sysEvent K fuel C o t = (.ok r, u)) : SysTrace K C o s (rs ++ [r]) u
  | failed {rs : List (Option SysObj)} {t u : DSt} {e : Exc} (h : SysTrace K C o s rs t) (fuel : Nat)
      (hr : sysEvent K fuel C o t = (.error e, u)) : SysTrace K C o s rs u

end PT.Spec
