import Verif.Lemmas.Local
import Verif.Model.StraceMain

/-! What is printed in a run depends on the kernel only through its replies, too (see `Lemmas/Local`). -/

namespace PT

/-- An outcome with output, as an outcome of the debugger. -/
def packed {α : Type} (x : Except Exc α × Con DSt) : Except Exc (Except Exc α × List Str) × DSt := (.ok (x.1, x.2.out), x.2.inner)

/-- A function that prints. -/
def LocalOut {α : Type} (m : Kern → Py (Con DSt) α) : Prop := ∀ d, LocalAt d.inner.log (fun K => packed (m K d))

theorem packed_eq {α : Type} {x y : Except Exc α × Con DSt} (h : packed x = packed y) : x = y := by
  obtain ⟨r, s, o⟩ := x
  obtain ⟨r', s', o'⟩ := y
  unfold packed at h
  dsimp only at h
  injection h with h1 h2
  injection h1 with h1
  injection h1 with h1 h3
  subst h1 h2 h3
  rfl

namespace LocalOut
variable {α β : Type} {d : Con DSt}

/-- What asks for nothing. -/
theorem const {x : Except Exc α × Con DSt} (h : x.2.inner.log = d.inner.log) : LocalAt d.inner.log (fun _ => packed x) :=
  LocalAt.const (r := .ok (x.1, x.2.out)) (t := x.2.inner) h

theorem inside {m : Kern → Py DSt α} (hm : Local m) : LocalAt d.inner.log (fun K => packed (PT.inside (m K) d)) :=
  LocalAt.case (m := fun K => m K d.inner) (F := fun _ r t => (.ok (r, d.out), t)) (hm d.inner) fun _ _ => LocalAt.const rfl

/-- One thing after the other, whatever comes of the first. -/
theorem case {m : Kern → Except Exc α × Con DSt} {F : Kern → Except Exc α → Con DSt → Except Exc β × Con DSt}
    (hm : LocalAt d.inner.log (fun K => packed (m K))) (hF : ∀ r e, LocalAt e.inner.log (fun K => packed (F K r e))) :
    LocalAt d.inner.log (fun K => packed (F K (m K).1 (m K).2)) :=
  LocalAt.case (m := fun K => packed (m K)) (F := fun K r t => match r with
    | .ok (r, out) => packed (F K r ⟨t, out⟩)
    | .error e => (.error e, t)) hm (fun r t => by
      cases r with
      | ok r => exact hF r.1 ⟨t, r.2⟩
      | error e => exact LocalAt.const rfl)

theorem pair {m : Kern → Except Exc α × Con DSt} {F : Kern → Except Exc α × Con DSt → Except Exc β × Con DSt}
    (hm : LocalAt d.inner.log (fun K => packed (m K))) (hF : ∀ r e, LocalAt e.inner.log (fun K => packed (F K (r, e)))) :
    LocalAt d.inner.log (fun K => packed (F K (m K))) :=
  case (F := fun K r e => F K (r, e)) hm hF

theorem bind {m : Kern → Py (Con DSt) α} {f : Kern → α → Py (Con DSt) β} (hm : LocalAt d.inner.log (fun K => packed (m K d)))
    (hf : ∀ a e, LocalAt e.inner.log (fun K => packed (f K a e))) : LocalAt d.inner.log (fun K => packed (Py.bind (m K) (f K) d)) := by
  have := case (F := fun K r e => match r with
    | .ok a => f K a e
    | .error x => (.error x, e)) hm (fun r e => by
      cases r with
      | ok a => exact hf a e
      | error x => exact const rfl)
  have e : (fun K => packed (Py.bind (m K) (f K) d)) = (fun K => packed (match (m K d).1 with
    | .ok a => f K a (m K d).2
    | .error e => (.error e, (m K d).2))) := by
    funext K
    unfold Py.bind
    rcases m K d with ⟨r, t⟩
    cases r <;> rfl
  rw [e]
  exact this

theorem pure (a : α) : LocalAt d.inner.log (fun _ => packed (Py.pure a d)) := const rfl
theorem raise (e : Exc) : LocalAt d.inner.log (fun _ => packed ((Py.raise e : Py (Con DSt) α) d)) := const rfl
theorem say (text : Str) : LocalAt d.inner.log (fun _ => packed (PT.say text d)) := const rfl

theorem sayAll (lines : List Str) : LocalAt d.inner.log (fun _ => packed (PT.sayAll lines d)) := by
  refine const ?_
  induction lines generalizing d with
  | nil => rfl
  | cons t ts ih => exact ih (d := { d with out := d.out ++ [t] })
end LocalOut

open LocalOut (case const pure raise)

theorem localOut_display (F : LineView) (o : Nat) (c : SysObj) : LocalOut fun K => displaySyscallOut K F o c := fun _ =>
  LocalOut.bind (LocalOut.inside (local_display o)) fun _ _ => LocalOut.say _

theorem localOut_syscall (fuel : Nat) (C : StraceCfg) (F : LineView) (o : Nat) : LocalOut fun K => straceSyscallOut K fuel C F o := by
  intro d
  refine LocalOut.bind (LocalOut.inside (local_sysEvent fuel C.sys o)) fun r e => LocalOut.bind ?_ fun _ _ => LocalOut.inside (local_syscall o 0)
  cases r with
  | none => exact pure ()
  | some c =>
    dsimp only
    split
    · exact localOut_display F o c e
    · exact pure ()

theorem localOut_exited (C : StraceCfg) (F : LineView) (o : Nat) (a b : Option Nat) : LocalOut fun K => processExitedOut K C F o a b := by
  intro d
  unfold processExitedOut
  refine LocalOut.bind ?_ fun _ _ => LocalOut.say _
  cases (d.inner.heap o).ss.syscall with
  | none => exact pure ()
  | some c =>
    dsimp only
    split
    · exact localOut_display F o c d
    · exact pure ()

theorem local_newProcess (q : Nat) : Local fun K => straceNewProcess K q := by
  intro s
  unfold straceNewProcess
  refine LocalAt.bind (local_prepare q s) fun _ t => ?_
  cases (t.heap q).parent with
  | none => exact LocalAt.const rfl
  | some p => exact local_syscall p 0 t

theorem localOut_handle (fuel : Nat) (C : StraceCfg) (F : LineView) (r : Except Exc Event) (code : Nat) :
    LocalOut fun K => straceHandleOut K fuel C F r code := by
  intro d
  unfold straceHandleOut
  dsimp only
  cases r with
  | ok ev => exact LocalOut.bind (localOut_syscall fuel C F _ d) fun _ _ => pure _
  | error e =>
    cases e with
    | event ev =>
      cases ev with
      | exit o a b => exact LocalOut.bind (localOut_exited C F o a b d) fun _ _ => pure _
      | signal o n =>
        exact LocalOut.bind (LocalOut.inside (local_display o)) fun _ _ => LocalOut.bind (LocalOut.sayAll _) fun _ _ =>
          LocalOut.bind (LocalOut.inside (local_syscall o n)) fun _ _ => pure _
      | newProcess q =>
        refine LocalOut.bind ?_ fun _ _ => pure _
        unfold straceNewProcessOut
        exact LocalOut.bind (LocalOut.say _) fun _ _ => LocalOut.inside (local_newProcess q)
      | execution o =>
        refine LocalOut.bind ?_ fun _ _ => pure _
        unfold processExecutionOut
        exact LocalOut.bind (LocalOut.say _) fun _ _ => LocalOut.inside (local_syscall o 0)
    | _ => exact raise _

theorem localOut_turn (fuel : Nat) (C : StraceCfg) (F : LineView) (code : Nat) : LocalOut fun K => straceTurnOut K fuel C F code :=
  fun d => case (m := fun K => inside (waitSyscall K fuel none) d) (F := fun K r e => straceHandleOut K fuel C F r code e)
    (LocalOut.inside (local_waitSyscall fuel none)) fun r e => localOut_handle fuel C F r code e

theorem localOut_loop (fuel : Nat) (C : StraceCfg) (F : LineView) : ∀ n code, LocalOut fun K => straceLoopOut K fuel C F n code := by
  intro n
  induction n with
  | zero => exact fun _ _ => raise _
  | succ n ih =>
    intro code d
    unfold straceLoopOut
    dsimp only
    split
    · exact const rfl
    · exact LocalOut.bind (localOut_turn fuel C F code d) fun c e => ih c e

theorem localOut_create (fuel : Nat) (T : MainTexts) (pid : Nat) (b : Bool) : LocalOut fun K => createProcessOut K fuel T pid b := by
  intro d
  refine LocalOut.bind (LocalOut.say _) fun _ e => ?_
  refine LocalOut.pair (m := fun K => inside (addProcess K (waitEventPid K fuel) pid b none false) e) (F := fun K x => match x with
    | (.ok o, e) => (.ok (some o), e)
    | (.error (.event (.exit o a b)), e) => Py.bind (PT.say (attachErrorLine T pid (.event (.exit o a b)))) (fun _ => Py.pure none) e
    | (.error (.ptrace errno), e) => Py.bind (PT.say (attachErrorLine T pid (.ptrace errno))) (fun _ => Py.pure none) e
    | (.error x, e) => (.error x, e)) (LocalOut.inside (local_addProcess (local_waitEventPid fuel) _ _ _ _)) fun r t => ?_
  cases r with
  | ok a => exact const rfl
  | error e =>
    cases e with
    | event ev => cases ev <;> exact const rfl
    | _ => exact const rfl

theorem localOut_run (fuel : Nat) (C : StraceCfg) (F : LineView) (T : MainTexts) (pid : Nat) (b : Bool) :
    LocalOut fun K => straceRunOut K fuel C F T pid b := by
  intro d
  refine LocalOut.bind (localOut_create fuel T pid b d) fun o e => ?_
  cases o with
  | none => exact pure none
  | some o =>
    exact LocalOut.bind (LocalOut.bind (LocalOut.inside (local_prepare o)) fun _ e => localOut_loop fuel C F fuel 0 e) fun _ _ => pure _

theorem localOut_except (C : StraceCfg) (F : LineView) (T : MainTexts) (x : Exc) : LocalOut fun K => straceExceptOut K C F T x := by
  intro d
  unfold straceExceptOut
  cases x with
  | event ev =>
    cases ev with
    | exit o a c => exact LocalOut.bind (localOut_exited C F o a c d) fun _ _ => pure _
    | _ => exact LocalOut.bind (LocalOut.sayAll _) fun _ _ => pure _
  | diverge => exact raise _
  | ptrace e => exact LocalOut.bind (LocalOut.say _) fun _ _ => pure _
  | interrupt => exact LocalOut.bind (LocalOut.say _) fun _ _ => pure _
  | _ => exact LocalOut.bind (LocalOut.sayAll _) fun _ _ => pure _

/-- strace.py, from its start to its end, with its output. -/
theorem localOut_strace (fuel : Nat) (C : StraceCfg) (F : LineView) (T : MainTexts) (pid : Nat) (b : Bool) :
    LocalOut fun K => straceMainOut K fuel C F T pid b := by
  intro d
  refine case (m := fun K => straceRunOut K fuel C F T pid b d) (F := fun K r e => Py.bind (match r with
    | .ok code => Py.pure code
    | .error e => straceExceptOut K C F T e) (fun code => Py.bind (inside (quit K fuel)) fun _ => Py.pure code) e) (localOut_run fuel C F T pid b d)
    fun r e => ?_
  refine LocalOut.bind ?_ fun c e => LocalOut.bind (LocalOut.inside (local_quit fuel)) fun _ _ => pure _
  cases r with
  | ok c => exact pure c
  | error x => exact localOut_except C F T x e

end PT
