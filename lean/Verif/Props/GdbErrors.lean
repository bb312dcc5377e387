import Verif.Lemmas.GdbErrors
import Verif.Props.Errors

/-! C147 for gdb.py. -/

namespace PT

open PT.Spec

variable {K : Kern}

theorem empty_unnumbered {s : DSt} (hg : Good s) (hl : iterate s = []) (pid : Nat) : dictHas s.dict pid = false := by
  cases hd : dictHas s.dict pid with
  | false => rfl
  | true =>
    obtain ⟨q, hq⟩ := dictHas_mem hd
    have := ((hg.reg.agree _ _).1 hq).1
    have hl : s.list = [] := hl
    rw [hl] at this
    cases this

/-- **C147, partial** `Gdb.runDebugger` of gdb.py, for any lines the user types, any ^C, and whatever the kernel replies: the exception that it raises tells of something outside the debugger.
There are three exceptions: a `KeyError` if the kernel told of a new process with the number of a registered one; a `KeyError` if the user typed an `attach` and its argument is
the number of a process that is registered at that moment; and an exception of the evaluation of an argument, other than `ValueError` (`C96_zero_refuted`: a division by zero). In
particular no command picks from the list of processes when it is empty, or waits for a process that is no more. (The full statement is without them: `C147_refuted`, `C147_gdb_refuted`.) -/
theorem C147_gdb_run_partial (hz : RealPids K) (ha : NoAttachZero K) {s t : DSt} (hs : Reach K s) (hl : iterate s = []) (fuel : Nat) (G : GdbCfg) (hG : NoEvent G)
    (pid : Nat) (hp : pid ≠ 0) (isAttached : Bool) (inputs : List Input) (e : Exc) (h : gdbRun K fuel G pid isAttached inputs s = (.error e, t)) :
    FromOutside e ∨ (e = .key ∧ ∃ g, t.log = s.log ++ g ∧ ToldTwice g) ∨ (e = .key ∧ TypedAttach G.space inputs ∧ NumberTaken G t) ∨
      (∃ text, G.parse t text = .error e ∧ e ≠ .value) := by
  have hg := reach_good hz hs
  have hc := (gclean_run (K := K) hz ha hG hg fuel pid isAttached inputs hp (empty_unnumbered hg hl pid)).1 e (by rw [h])
  rw [h] at hc
  rcases hc with hc | ⟨he, hc | hc⟩ | hc
  · exact Or.inl hc
  · exact Or.inr (Or.inl ⟨he, hc⟩)
  · exact Or.inr (Or.inr (Or.inl ⟨he, hc⟩))
  · exact Or.inr (Or.inr (Or.inr hc))

/-- **C147, partial** `Gdb.main` takes every exception of `runDebugger`, and quits: what leaves it is an exception of `quit`, and tells of something outside the debugger, unless the kernel
told of a new process with the number of a registered one. -/
theorem C147_gdb_main_partial (hz : RealPids K) (ha : NoAttachZero K) {s t : DSt} (hs : Reach K s) (hl : iterate s = []) (fuel : Nat) (G : GdbCfg) (hG : NoEvent G)
    (pid : Nat) (hp : pid ≠ 0) (isAttached : Bool) (inputs : List Input) (e : Exc) (h : gdbMain K fuel G pid isAttached inputs s = (.error e, t)) :
    FromOutside e ∨ (e = .key ∧ ∃ g, t.log = s.log ++ g ∧ ToldTwice g) := by
  have hg := reach_good hz hs
  have hc := clean_gdbMain (K := K) hz ha hG hg fuel pid isAttached inputs hp (empty_unnumbered hg hl pid) e (by rw [h])
  rw [h] at hc
  exact hc

theorem selfCfg_plain : NoEvent selfCfg := by
  intro s text ev h
  have h : (if text = "1".toList then .ok 1 else .error .value : Except Exc Nat) = .error (.event ev) := h
  split at h <;> cases h

/-- The kernel of `C147_gdb_refuted`; there is no process 0 to attach. -/
def refusing : Kern := fun log c =>
  match c with
  | .attach _ 0 => .err 3
  | c => killable log c

theorem noAttachZero_refusing : NoAttachZero refusing := by intro log o v st h; cases h

theorem realPids_refusing : RealPids refusing := by intro log o pid st h; cases h

/-- The session of `C147_gdb_refuted`, in which nothing else than the number of a traced process is wrong. -/
example : ∃ t, gdbRun refusing 9 selfCfg 1 true [.line "attach 1".toList, .line "cont".toList, .eof] newDebugger = (.error .key, t) ∧
    TypedAttach selfCfg.space [.line "attach 1".toList, .line "cont".toList, .eof] ∧ NumberTaken selfCfg t := by
  have h0 : (gdbRun refusing 9 selfCfg 1 true [.line "attach 1".toList, .line "cont".toList, .eof] newDebugger).1 = .error .key ∧
    (gdbRun refusing 9 selfCfg 1 true [.line "attach 1".toList, .line "cont".toList, .eof] newDebugger).2.log.all (fun e => match e.call with | .geteventmsg _ _ => false | _ => true) = true := by
    decide +kernel
  refine ⟨_, pair_eq h0.1, ?_⟩
  rcases C147_gdb_run_partial (K := refusing) realPids_refusing noAttachZero_refusing .new rfl 9 selfCfg selfCfg_plain 1 (by decide) true _ _
    (pair_eq h0.1) with h | h | h | h
  · cases h
  · obtain ⟨_, g, h1, e, he, o, p, pid, st, q, h2, _⟩ := h
    have h1 : _ = g := h1
    have h3 := List.all_eq_true.1 h0.2 e (by rw [h1]; exact he)
    rw [h2] at h3
    cases h3
  · exact h.2
  · obtain ⟨text, h, _⟩ := h
    have h : (if text = "1".toList then .ok 1 else .error .value : Except Exc Nat) = .error .key := h
    split at h <;> cases h

/-- The process cannot be killed: gdb.py ends with this exception. -/
def stubborn : Kern := fun log c =>
  match c with
  | .attach _ 0 => .err 3
  | c => unkillable log c

example : FromOutside (.ptrace (some 1)) := by
  have h : (gdbMain stubborn 9 selfCfg 7 true [.line "cont".toList, .eof] newDebugger).1 = .error (.ptrace (some 1)) := by decide +kernel
  rcases C147_gdb_main_partial (K := stubborn) (by intro log o pid st h; cases h) (by intro log o v st h; cases h) .new rfl 9 selfCfg selfCfg_plain 7 (by decide) true
    _ _ (pair_eq h) with h | h
  · exact h
  · cases h.1

end PT
