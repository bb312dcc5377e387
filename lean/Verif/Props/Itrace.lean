import Verif.Lemmas.Strace
import Verif.Spec.Itrace
import Verif.Model.Itrace
import Verif.Props.Strace
import Verif.Props.Lines
import Verif.Props.Report

/-! C115: `examples/itrace.py`. -/

namespace PT
open Spec
variable {K : Kern}

/-- What a part of the run adds: requests that act on a process, addresses read and lines. -/
def IRel (d e : Con DSt) (cs : List Call) (ips : List Nat) (ls : List Str) : Prop :=
  ∃ g, e.inner.log = d.inner.log ++ g ∧ acting g = cs ∧ ipsRead g = ips ∧ Paired g ∧ e.out = d.out ++ ls ∧ Old d.inner e.inner

theorem Paired.append {g h : List Entry} (h1 : Paired g) (h2 : Paired h) : Paired (g ++ h) := by
  intro g1 e g2 o pid hg he
  rcases List.append_eq_append_iff.1 hg with ⟨a, ha, hb⟩ | ⟨a, ha, hb⟩
  · obtain ⟨g0, e', ip, st, h3, h4, h5⟩ := h2 a e g2 o pid hb he
    exact ⟨g ++ g0, e', ip, st, by rw [ha, h3, List.append_assoc], h4, h5⟩
  · cases a with
    | nil =>
      rw [List.nil_append] at hb
      obtain ⟨g0, e', ip, st, h3, h4, h5⟩ := h2 [] e g2 o pid (by rw [← hb]; rfl) he
      exact absurd h3 (by simp)
    | cons b a =>
      injection hb with hb1 hb2
      subst hb1
      exact h1 g1 e a o pid ha he

theorem ipsRead_append (g h : List Entry) : ipsRead (g ++ h) = ipsRead g ++ ipsRead h := List.filterMap_append

theorem IRel.refl (d : Con DSt) : IRel d d [] [] [] :=
  ⟨[], by simp, rfl, rfl, (fun g1 e g2 _ _ h => absurd h (by simp)), by simp, Old.refl _⟩

theorem IRel.trans {d e f : Con DSt} {cs cs' : List Call} {ips ips' : List Nat} {ls ls' : List Str} (h1 : IRel d e cs ips ls)
    (h2 : IRel e f cs' ips' ls') : IRel d f (cs ++ cs') (ips ++ ips') (ls ++ ls') := by
  obtain ⟨g, a1, a2, a3, a4, a5, a6⟩ := h1
  obtain ⟨k, b1, b2, b3, b4, b5, b6⟩ := h2
  exact ⟨g ++ k, by rw [b1, a1, List.append_assoc], by rw [acting_append, a2, b2], by rw [ipsRead_append, a3, b3], Paired.append a4 b4,
    by rw [b5, a5, List.append_assoc], a6.trans b6⟩

theorem irel_say (t : Str) (d : Con DSt) : IRel d { d with out := d.out ++ [t] } [] [] [t] :=
  ⟨[], by simp, rfl, rfl, (fun g1 e g2 _ _ h => absurd h (by simp)), rfl, Old.refl _⟩

/-- Steps of waiting. -/
theorem irel_wait {d : Con DSt} {t : DSt} (h : Steps K (fun _ a => a = .call .sleep ∨ waitActs True a) d.inner t) :
    IRel d { d with inner := t } [] [] [] := by
  obtain ⟨g, hg, hq⟩ := h.newLog (Q := fun e => target e.call = none ∧ (∀ o pid, e.call ≠ .inspect o pid)) (by
    rintro u a c (rfl | ha) hc
    · injection hc with hc; rw [← hc]; exact ⟨rfl, fun _ _ h => by cases h⟩
    · refine ⟨(waitActs_target ha hc).1, ?_⟩
      rintro o pid rfl
      cases a <;> simp [actCall] at hc
      case call c => subst hc; exact ha
      case add o pid b parent th => cases b <;> simp [actCall] at hc)
  refine ⟨g, hg, acting_nil fun e he => (hq e he).1, ?_, ?_, by simp, h.old⟩
  · refine List.filterMap_eq_nil_iff.2 fun e he => ?_
    have := (hq e he).2
    split
    · rename_i h _; exact absurd h (this _ _)
    · rfl
  · intro g1 e g2 o pid hgg he
    have := (hq e (by rw [hgg]; simp)).1
    rw [he] at this
    cases this

theorem waitSyscall_irel (fuel : Nat) (d : Con DSt) : IRel d (inside (waitSyscall K fuel none) d).2 [] [] [] :=
  irel_wait (waitSignals_wait (P := fun _ a => a = .call .sleep ∨ waitActs True a) (fun _ _ h => Or.inr h) (fun _ => Or.inl rfl) fuel _ _ d.inner)

theorem waitProcessEvent_irel (fuel : Nat) (d : Con DSt) : IRel d (inside (waitProcessEvent K fuel none true) d).2 [] [] [] := by
  refine irel_wait (K := K) ?_
  exact waitProcessEvent_sat (S := Rules.plain K fun _ a => a = .call .sleep ∨ waitActs True a) (fun _ _ h => Or.inr h) (fun _ => Or.inl rfl)
    (fun _ _ _ _ => Or.inr trivial) fuel none (Or.inr trivial) true d.inner trivial

/-- A request to go on to the next system call is one acting request. -/
theorem procSyscall_irel (o : Nat) (d : Con DSt) :
    IRel d (inside (procSyscall K o 0) d).2 [.syscall o (d.inner.heap o).pid 0] [] [] := by
  have key : ∀ t : DSt, t.log = d.inner.log ++ [⟨.syscall o (d.inner.heap o).pid 0, K d.inner.log (.syscall o (d.inner.heap o).pid 0), d.inner.dict⟩] →
      Old d.inner t → IRel d { d with inner := t } [.syscall o (d.inner.heap o).pid 0] [] [] := by
    intro t ht hold
    refine ⟨_, ht, acting_one _ rfl, rfl, ?_, by simp, hold⟩
    intro g1 e g2 o' pid' hg he
    cases g1 with
    | nil => injection hg with hg _; rw [← hg] at he; cases he
    | cons a g1 => injection hg with _ hg; simp at hg
  have hst := procSyscall_sat (K := K) (S := Rules.plain K fun _ _ => True) o 0 (fun _ _ => trivial) (fun _ => trivial) d.inner trivial
  refine key _ ?_ hst.old
  unfold procSyscall
  rw [show filterSignal 0 = 0 from rfl]
  show (Py.bind (ptraceCall K _) _ d.inner).2.log = _
  unfold Py.bind
  rw [ptraceCall_run]
  cases ptraceRes (K d.inner.log (.syscall o (d.inner.heap o).pid 0)) <;> rfl

/-- Reading the instruction pointer fails. -/
theorem itraceIp_error {o : Nat} {d : Con DSt} {e : Con DSt} {x : Exc} (h : inside (itraceIp K o) d = (.error x, e)) : IRel d e [] [] [] := by
  have h2 : inside (itraceIp K o) d = (ptraceRes (K d.inner.log (.inspect o (d.inner.heap o).pid)),
      { d with inner := logCall K (.inspect o (d.inner.heap o).pid) d.inner }) := inside_eq (ptraceCall_run _ _)
  rw [h2] at h
  injection h with h1 h3
  subst h3
  refine ⟨[⟨.inspect o (d.inner.heap o).pid, K d.inner.log (.inspect o (d.inner.heap o).pid), d.inner.dict⟩], rfl, rfl, ?_, ?_, by simp, Old.logCall _ _⟩
  · have := ptraceRes_err h1
    refine List.filterMap_eq_nil_iff.2 fun e he => ?_
    rw [List.mem_singleton.1 he]
    cases hr : K d.inner.log (.inspect o (d.inner.heap o).pid) with
    | ok v st => exact absurd hr (this v st)
    | err _ => rfl
    | interrupt => rfl
  · intro g1 e g2 o' pid' hg he
    cases g1 with
    | nil => injection hg with hg _; rw [← hg] at he; cases he
    | cons a g1 => injection hg with _ hg; simp at hg

/-- One instruction: the address is read and printed, then the process makes a step. -/
theorem step_irel {o ip i : Nat} {d e : Con DSt} (h : inside (itraceIp K o) d = (.ok ip, e)) :
    (e.inner.heap o).pid = (d.inner.heap o).pid ∧
    IRel d (inside (procSingleStep K o) { e with out := e.out ++ [stepText i (d.inner.heap o).pid ip] }).2
      [.singlestep o (d.inner.heap o).pid] [ip] [stepText i (d.inner.heap o).pid ip] := by
  have h2 : inside (itraceIp K o) d = (ptraceRes (K d.inner.log (.inspect o (d.inner.heap o).pid)),
      { d with inner := logCall K (.inspect o (d.inner.heap o).pid) d.inner }) := inside_eq (ptraceCall_run _ _)
  rw [h2] at h
  injection h with h1 h3
  subst h3
  refine ⟨rfl, ?_⟩
  obtain ⟨st, hk⟩ := ptraceRes_ok h1
  generalize ht : logCall K (.inspect o (d.inner.heap o).pid) d.inner = t
  have hold : Old d.inner t := ht ▸ Old.logCall _ _
  have hpid : (t.heap o).pid = (d.inner.heap o).pid := by rw [← ht]; rfl
  have hlog : t.log = d.inner.log ++ [⟨.inspect o (d.inner.heap o).pid, .ok ip st, d.inner.dict⟩] := by
    rw [← ht, ← hk]; rfl
  have hs : (procSingleStep K o t).2 = logCall K (.singlestep o (d.inner.heap o).pid) t := by
    unfold procSingleStep Py.bind
    rw [ptraceCall_run, hpid]
    cases ptraceRes (K t.log (.singlestep o (d.inner.heap o).pid)) <;> rfl
  refine ⟨[⟨.inspect o (d.inner.heap o).pid, .ok ip st, d.inner.dict⟩,
    ⟨.singlestep o (d.inner.heap o).pid, K t.log (.singlestep o (d.inner.heap o).pid), t.dict⟩], ?_, rfl, rfl, ?_, rfl, ?_⟩
  · show (procSingleStep K o t).2.log = _
    rw [hs]
    show t.log ++ _ = _
    rw [hlog, List.append_assoc]
    rfl
  · intro g1 e g2 o' pid' hg he
    match g1, hg with
    | [], hg => injection hg with hg _; rw [← hg] at he; cases he
    | [a], hg =>
      injection hg with hg1 hg2
      injection hg2 with hg2 _
      rw [← hg2] at he
      injection he with he1 he2
      subst he1; subst he2
      exact ⟨[], a, ip, st, rfl, by rw [← hg1], by rw [← hg1]⟩
    | a :: b :: g1, hg => injection hg with _ hg; injection hg with _ hg; simp at hg
  · show Old d.inner (procSingleStep K o t).2
    rw [hs]
    exact hold.trans (Old.logCall _ _)

theorem pyHexPad_ge (w n : Nat) : w ≤ (pyHexPad w n).length := by
  unfold pyHexPad
  simp only [List.length_append, List.length_replicate]
  omega

theorem stepText_line (i pid ip : Nat) : StepLine i pid ip (stepText i pid ip) :=
  ⟨pyDec i, pyDec pid, pyHexPad 8 ip, decNumber_pyDec i, decNumber_pyDec pid, hexNumber_pyHexPad 8 ip, pyHexPad_ge 8 ip, by
    unfold stepText
    simp [List.append_assoc]⟩

theorem clear128_eq (n : Nat) : clear128 n = 5 ↔ n = 5 ∨ n = 0x85 := by
  unfold clear128
  have h : n &&& 128 = 0 ∨ n &&& 128 = 128 := by
    have := Nat.and_two_pow n 7
    rw [show 2 ^ 7 = 128 from rfl] at this
    rw [this]
    cases n.testBit 7 <;> simp
  constructor
  · intro h5
    have hn : n = 5 ^^^ (n &&& 128) := by rw [← h5, Nat.xor_assoc, Nat.xor_self, Nat.xor_zero]
    rcases h with h | h <;> rw [h] at hn
    · exact Or.inl hn
    · exact Or.inr hn
  · rintro (rfl | rfl) <;> decide

/-- What the loop of single steps does. -/
theorem itraceSteps_irel (fuel o pid : Nat) : ∀ (n i : Nat) (d : Con DSt), o < d.inner.next → (d.inner.heap o).pid = pid →
    ∃ ips ls last, IRel d (itraceSteps K fuel o n i d).2 (List.replicate ips.length (.singlestep o pid)) ips (ls ++ last) ∧
      StepLines pid i ips ls ∧ ((itraceSteps K fuel o n i d).1 = .ok () → TraceEnd last) ∧
      (∀ x, (itraceSteps K fuel o n i d).1 = .error x → last = []) := by
  intro n
  induction n with
  | zero => intro i d _ _; exact ⟨[], [], [], IRel.refl d, rfl, (fun h => by cases h), fun _ _ => rfl⟩
  | succ n ih =>
    intro i d ho hp
    subst hp
    unfold itraceSteps
    by_cases hl : length d.inner = 0
    · simp only [hl, if_true]
      exact ⟨[], [], [], IRel.refl d, rfl, (fun _ => .empty), fun _ _ => rfl⟩
    · simp only [hl, if_false]
      cases h1 : inside (itraceIp K o) d with
      | mk r e =>
      cases r with
      | error x =>
        rw [Py.run_bind_error h1]
        exact ⟨[], [], [], itraceIp_error h1, rfl, (fun h => by cases h), fun _ _ => rfl⟩
      | ok ip =>
        rw [Py.run_bind_ok h1]
        obtain ⟨hpe, hstep⟩ := step_irel (i := i) h1
        have hsay : (fun e : Con DSt => say (stepText i (e.inner.heap o).pid ip) e) e =
            (.ok (), { e with out := e.out ++ [stepText i (d.inner.heap o).pid ip] }) := by
          show say (stepText i (e.inner.heap o).pid ip) e = _
          rw [hpe, say_eq]
        rw [Py.run_bind_ok (m := fun e : Con DSt => say (stepText i (e.inner.heap o).pid ip) e) hsay]
        generalize { e with out := e.out ++ [stepText i (d.inner.heap o).pid ip] } = f at hstep
        cases h2 : inside (procSingleStep K o) f with
        | mk r f1 =>
        rw [h2] at hstep
        cases r with
        | error x =>
          rw [Py.run_bind_error h2]
          exact ⟨[ip], [_], [], hstep, ⟨_, _, rfl, stepText_line _ _ _, rfl⟩, (fun h => by cases h), fun _ _ => rfl⟩
        | ok u =>
          rw [Py.run_bind_ok h2]
          have hw := waitProcessEvent_irel (K := K) fuel f1
          cases h3 : inside (waitProcessEvent K fuel none true) f1 with
          | mk r f2 =>
          rw [h3] at hw
          have hw2 := hstep.trans hw
          obtain ⟨_, _, _, _, _, _, hold⟩ := id hw2
          have stop : ∀ last, TraceEnd [last] → ∃ ips ls tl, IRel d (say last f2).2 (List.replicate ips.length (.singlestep o (d.inner.heap o).pid)) ips (ls ++ tl) ∧
              StepLines (d.inner.heap o).pid i ips ls ∧ ((say last f2).1 = .ok () → TraceEnd tl) ∧ (∀ x, (say last f2).1 = .error x → tl = []) :=
            fun last hlast => ⟨[ip], [stepText i (d.inner.heap o).pid ip], [last], hw2.trans (irel_say last f2),
              ⟨_, _, rfl, stepText_line _ _ _, rfl⟩, (fun _ => hlast), fun x h => by cases h⟩
          have again : ∃ ips ls tl, IRel d (itraceSteps K fuel o n (i + 1) f2).2 (List.replicate ips.length (.singlestep o (d.inner.heap o).pid)) ips (ls ++ tl) ∧
              StepLines (d.inner.heap o).pid i ips ls ∧ ((itraceSteps K fuel o n (i + 1) f2).1 = .ok () → TraceEnd tl) ∧
              (∀ x, (itraceSteps K fuel o n (i + 1) f2).1 = .error x → tl = []) := by
            obtain ⟨ips, ls, tl, a, b, c, c'⟩ := ih (i + 1) f2 (Nat.lt_of_lt_of_le ho hold.next) (hold.pid o ho)
            refine ⟨ip :: ips, stepText i (d.inner.heap o).pid ip :: ls, tl, ?_, ⟨_, _, rfl, stepText_line _ _ _, b⟩, c, c'⟩
            have := hw2.trans a
            simpa [List.replicate_succ] using this
          cases r with
          | error x =>
            rw [Py.run_bind_error h3]
            exact ⟨[ip], [_], [], hw2, ⟨_, _, rfl, stepText_line _ _ _, rfl⟩, (fun h => by cases h), fun _ _ => rfl⟩
          | ok ev =>
            rw [Py.run_bind_ok h3]
            match ev with
            | none => exact again
            | some (.exit _ _ _) => exact stop _ .exit
            | some (.newProcess _) => exact again
            | some (.execution _) => exact again
            | some (.signal _ signum) =>
              by_cases hs : clear128 signum = SIGTRAP
              · simp only [hs, ne_eq, not_true_eq_false, if_false]
                exact again
              · simp only [hs, ne_eq, not_false_eq_true, if_true]
                refine stop _ (.signal signum _ (decNumber_pyDec _) ?_)
                rw [show SIGTRAP = 5 from rfl, clear128_eq] at hs
                omega

/-- What the loop over the first stops does. -/
theorem itraceCount_irel (fuel o pid : Nat) (limit : Int) : ∀ (n i : Nat) (d : Con DSt), o < d.inner.next → (d.inner.heap o).pid = pid →
    ∃ ls, IRel d (itraceCount K fuel o (some limit) n i d).2 (List.replicate ls.length (.syscall o pid 0)) [] ls ∧ Counting i ls ∧
      (i + ls.length : Int) ≤ max limit i ∧
      ((itraceCount K fuel o (some limit) n i d).1 = .ok () → (i + ls.length : Int) = max limit i) := by
  intro n
  induction n with
  | zero => intro i d _ _; exact ⟨[], IRel.refl d, trivial, by simp; omega, (fun h => by cases h)⟩
  | succ n ih =>
    intro i d ho hp
    subst hp
    unfold itraceCount
    by_cases hl : (i : Int) < limit
    · simp only [hl, if_true]
      rw [Py.run_bind_ok (say_eq (pyDec i) d)]
      have h0 := irel_say (pyDec i) d
      generalize hf : ({ d with out := d.out ++ [pyDec i] } : Con DSt) = f at h0
      have hpf : (f.inner.heap o).pid = (d.inner.heap o).pid := by rw [← hf]
      have hnf : f.inner.next = d.inner.next := by rw [← hf]
      have h1 := h0.trans (procSyscall_irel (K := K) o f)
      rw [hpf] at h1
      cases h2 : inside (procSyscall K o 0) f with
      | mk r f1 =>
      rw [h2] at h1
      cases r with
      | error x =>
        rw [Py.run_bind_error h2]
        exact ⟨[pyDec i], h1, ⟨decNumber_pyDec i, trivial⟩, by simp; omega, (fun h => by cases h)⟩
      | ok u =>
        rw [Py.run_bind_ok h2]
        have h3 := h1.trans (waitSyscall_irel (K := K) fuel f1)
        cases h4 : inside (waitSyscall K fuel none) f1 with
        | mk r f2 =>
        rw [h4] at h3
        cases r with
        | error x =>
          rw [Py.run_bind_error h4]
          exact ⟨[pyDec i], h3, ⟨decNumber_pyDec i, trivial⟩, by simp; omega, (fun h => by cases h)⟩
        | ok ev =>
          rw [Py.run_bind_ok h4]
          obtain ⟨_, _, _, _, _, _, hold⟩ := id h3
          obtain ⟨ls, a, b, c, c'⟩ := ih (i + 1) f2 (Nat.lt_of_lt_of_le ho hold.next) (hold.pid o ho)
          refine ⟨pyDec i :: ls, ?_, ⟨decNumber_pyDec i, b⟩, ?_, ?_⟩
          · simpa [List.replicate_succ] using h3.trans a
          · simp only [List.length_cons]; push_cast at c ⊢; omega
          · intro h
            have := c' h
            simp only [List.length_cons]; push_cast at this ⊢; omega
    · simp only [hl, if_false]
      exact ⟨[], IRel.refl d, trivial, by simp; omega, (fun _ => by simp; omega)⟩

/-- C115. `itrace -n N`: the program is resumed by at most `N` requests to stop at a system call, each printed with its number, and after
`N` of them only by single steps. Every single step comes directly after the address of the instruction was read, there is one line
for each, numbered from 0, with the number of the process and this address, and nothing else is printed but how the trace ended. -/
theorem C115_partial (fuel o : Nat) (limit : Int) (d : Con DSt) (ho : o < d.inner.next) :
    ∃ g counts steps last, (itraceTrace K fuel o (some limit) d).2.inner.log = d.inner.log ++ g ∧
      acting g = List.replicate counts.length (.syscall o (d.inner.heap o).pid 0) ++
        List.replicate (ipsRead g).length (.singlestep o (d.inner.heap o).pid) ∧
      (counts.length : Int) ≤ max limit 0 ∧ (ipsRead g ≠ [] → (counts.length : Int) = max limit 0) ∧
      Paired g ∧
      (itraceTrace K fuel o (some limit) d).2.out = d.out ++ (counts ++ (steps ++ last)) ∧
      Counting 0 counts ∧ StepLines (d.inner.heap o).pid 0 (ipsRead g) steps ∧
      ((itraceTrace K fuel o (some limit) d).1 = .ok () → (counts.length : Int) = max limit 0 ∧ TraceEnd last) ∧
      (∀ x, (itraceTrace K fuel o (some limit) d).1 = .error x → last = []) := by
  obtain ⟨counts, hc, hcount, hle, heq⟩ := itraceCount_irel (K := K) fuel o _ limit fuel 0 d ho rfl
  unfold itraceTrace
  cases h : itraceCount K fuel o (some limit) fuel 0 d with
  | mk r e =>
  rw [h] at hc heq
  cases r with
  | error x =>
    rw [Py.run_bind_error h]
    obtain ⟨g, a1, a2, a3, a4, a5, _⟩ := hc
    refine ⟨g, counts, [], [], a1, ?_, ?_, ?_, a4, ?_, hcount, ?_, (fun h => by cases h), fun _ _ => rfl⟩
    · rw [a2, a3]; simp
    · simpa using hle
    · rw [a3]; exact fun h => absurd rfl h
    · simpa using a5
    · rw [a3]; rfl
  | ok u =>
    rw [Py.run_bind_ok h]
    obtain ⟨_, _, _, _, _, _, hold⟩ := id hc
    obtain ⟨ips, ls, last, b, hb, hlast, hlast'⟩ := itraceSteps_irel (K := K) fuel o _ fuel 0 e (Nat.lt_of_lt_of_le ho hold.next) (hold.pid o ho)
    obtain ⟨g, a1, a2, a3, a4, a5, _⟩ := hc.trans b
    have h3 : ipsRead g = ips := by simpa using a3
    have hN : (counts.length : Int) = max limit 0 := by simpa using heq rfl
    refine ⟨g, counts, ls, last, a1, ?_, by omega, (fun _ => hN), a4, a5, hcount, ?_, (fun h => ⟨hN, hlast h⟩), hlast'⟩
    · rw [a2, h3]
    · rw [h3]; exact hb

/-- C115. Without `-n` nothing is traced: the comparison with `None` raises before the first request. -/
theorem C115_default_refuted (fuel o : Nat) (d : Con DSt) : itraceTrace K (fuel + 1) o none d = (.error .type, d) := rfl

/-- Process 7 stops at system calls; each single step ends with `SIGTRAP`; the third one with the status `last`. -/
def stepping (last : Int) : Kern := fun log c =>
  match c with
  | .waitpid (some p) _ _ =>
    if (log.filter fun e => decide (e.call = .singlestep 0 7)).length = 3 then .ok p last
    else if (log.filter fun e => decide (e.call = .singlestep 0 7)).length ≠ 0 then .ok p 0x57f
    else if log.any fun e => decide (e.call = .syscall 0 7 0) then .ok p 0x857f else .ok p 0x137f
  | .inspect _ _ => .ok (0x400000 + log.length) 0
  | c => calm log c

example := C115_partial (K := stepping 0x300) 9 0 2 ⟨{ one (stepping 0x300) with useSysgood := true }, []⟩ (by decide)

/-- Three instructions are executed after two stops; the program exits with code 3. -/
example : let d : Con DSt := ⟨{ one (stepping 0x300) with useSysgood := true }, []⟩
    (itraceTrace (stepping 0x300) 9 0 (some 2) d).1 = .ok () ∧
    (itraceTrace (stepping 0x300) 9 0 (some 2) d).2.out = ["0", "1", "0 7 [00400006]", "1 7 [00400009]", "2 7 [0040000c]", "process exit"].map String.toList := by
  decide +kernel

/-- C115. "died with signal" does not say that the process died: a signal the process may survive ends the trace. The process is still
there, and the signal was not delivered to it. -/
theorem C115_died_refuted : ∃ (K : Kern) (d e : Con DSt), Reach K d.inner ∧ itraceTrace K 9 0 (some 0) d = (.ok (), e) ∧
    "died with signal 10".toList ∈ e.out ∧ iterate e.inner = [0] ∧ (e.inner.heap 0).running = true ∧
    (∀ x ∈ e.inner.log, ∀ n, sends x.call = some n → n = 0) := by
  refine ⟨stepping 0xa7f, ⟨one (stepping 0xa7f), []⟩, (itraceTrace (stepping 0xa7f) 9 0 (some 0) ⟨one (stepping 0xa7f), []⟩).2, one_reach _, ?_, ?_, ?_, ?_, ?_⟩
  · exact Prod.ext (by decide +kernel) rfl
  · decide +kernel
  · decide +kernel
  · decide +kernel
  · have h : ∀ x ∈ (itraceTrace (stepping 0xa7f) 9 0 (some 0) ⟨one (stepping 0xa7f), []⟩).2.inner.log, sends x.call = none ∨ sends x.call = some 0 := by
      decide +kernel
    intro x hx n hn
    rcases h x hx with h | h <;> rw [h] at hn
    · cases hn
    · injection hn with hn; exact hn.symm

/-- C115. The exit status of the tracer says nothing about the program: it is the one of `None` whatever the program exited with. -/
theorem C115_status_refuted : ∃ (K K' : Kern) (C : StraceCfg),
    (∃ x ∈ (itraceMain K 9 C (some 0) 7 true ⟨newDebugger, []⟩).2.inner.log, x.reply = .ok 7 0x300) ∧
    (∃ x ∈ (itraceMain K' 9 C (some 0) 7 true ⟨newDebugger, []⟩).2.inner.log, x.reply = .ok 7 0) ∧
    (itraceMain K 9 C (some 0) 7 true ⟨newDebugger, []⟩).1 = .ok none ∧ (itraceMain K' 9 C (some 0) 7 true ⟨newDebugger, []⟩).1 = .ok none := by
  exact ⟨stepping 0x300, stepping 0, readCfg, by decide +kernel, by decide +kernel, by decide +kernel, by decide +kernel⟩

end PT
