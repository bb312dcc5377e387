import Verif.Spec.Lines
import Verif.Props.Strace
import Verif.Props.Report
import Verif.Props.Dump

/-! C107: what `strace.py` prints. -/

namespace PT
open Spec
variable {K : Kern}

/-! ### Printing changes nothing else -/

/-- `m` is `n` with output. -/
def Echoes {σ α : Type} (m : Py (Con σ) α) (n : Py σ α) : Prop := ∀ c, (m c).1 = (n c.inner).1 ∧ (m c).2.inner = (n c.inner).2

theorem Echoes.inside {σ α : Type} (n : Py σ α) : Echoes (inside n) n := fun _ => ⟨rfl, rfl⟩

theorem Echoes.bind {σ α β : Type} {m : Py (Con σ) α} {n : Py σ α} {f : α → Py (Con σ) β} {g : α → Py σ β} (h : Echoes m n)
    (hf : ∀ a, Echoes (f a) (g a)) : Echoes (Py.bind m f) (Py.bind n g) := by
  intro c
  obtain ⟨h1, h2⟩ := h c
  cases hm : m c with
  | mk r d =>
    rw [hm] at h1 h2
    cases hn : n c.inner with
    | mk r' s =>
      rw [hn] at h1 h2
      simp only at h1 h2
      subst h1 h2
      cases r with
      | ok a => rw [Py.run_bind_ok hm, Py.run_bind_ok hn]; exact hf a d
      | error e => rw [Py.run_bind_error hm, Py.run_bind_error hn]; exact ⟨rfl, rfl⟩

theorem Echoes.pure {σ α : Type} (a : α) : Echoes (σ := σ) (Py.pure a) (Py.pure a) := fun _ => ⟨rfl, rfl⟩
theorem Echoes.raise {σ α : Type} (e : Exc) : Echoes (σ := σ) (α := α) (Py.raise e) (Py.raise e) := fun _ => ⟨rfl, rfl⟩

theorem bind_pure_unit {σ : Type} (n : Py σ Unit) : Py.bind n (fun _ => Py.pure ()) = n := by
  funext s
  cases h : n s with
  | mk r t => cases r with
    | ok a => rw [Py.run_bind_ok h]; rfl
    | error e => rw [Py.run_bind_error h]

theorem Echoes.say {σ α : Type} {f : Unit → Py (Con σ) α} {n : Py σ α} (text : Con σ → Str) (h : Echoes (f ()) n) :
    Echoes (fun d => Py.bind (PT.say (text d)) f d) n := by
  intro c
  show (Py.bind (PT.say (text c)) f c).1 = _ ∧ (Py.bind (PT.say (text c)) f c).2.inner = _
  rw [Py.run_bind_ok (say_eq (text c) c)]
  exact h _

theorem displaySyscallOut_prints (F : LineView) (o : Nat) (c : SysObj) : Echoes (displaySyscallOut K F o c) (displaySyscall K o) := by
  rw [← bind_pure_unit (displaySyscall K o)]
  exact (Echoes.inside _).bind fun _ d => ⟨rfl, rfl⟩

theorem straceSyscallOut_prints (fuel : Nat) (C : StraceCfg) (F : LineView) (o : Nat) :
    Echoes (straceSyscallOut K fuel C F o) (straceSyscall K fuel C o) := by
  refine (Echoes.inside _).bind fun r => Echoes.bind ?_ fun _ => Echoes.inside _
  cases r with
  | none => exact Echoes.pure ()
  | some c =>
    show Echoes (if (c.result.isSome || C.enter) = true then _ else _) (if (c.result.isSome || C.enter) = true then _ else _)
    split
    · exact displaySyscallOut_prints F o c
    · exact Echoes.pure ()

theorem processExitedOut_prints (C : StraceCfg) (F : LineView) (o : Nat) (signum exitcode : Option Nat) :
    Echoes (processExitedOut K C F o signum exitcode) (processExited K C o) := by
  intro d
  unfold processExitedOut processExited
  have key : ∀ (m : Py (Con DSt) Unit) (n : Py DSt Unit), Echoes m n →
      (Py.bind m (fun _ => fun e => say (starred (processExitMessage F.signames (e.inner.heap o).pid signum exitcode)) e) d).1 = (n d.inner).1 ∧
      (Py.bind m (fun _ => fun e => say (starred (processExitMessage F.signames (e.inner.heap o).pid signum exitcode)) e) d).2.inner = (n d.inner).2 := by
    intro m n h
    have := h.bind (f := fun _ => fun e => say (starred (processExitMessage F.signames (e.inner.heap o).pid signum exitcode)) e)
      (g := fun _ => Py.pure ()) (fun _ e => ⟨rfl, rfl⟩) d
    rwa [bind_pure_unit] at this
  cases hs : (d.inner.heap o).ss.syscall with
  | none =>
    simp only [Option.isSome_none, Bool.and_false, Bool.false_eq_true, if_false]
    exact key _ (Py.pure ()) (Echoes.pure ())
  | some c =>
    simp only [Option.isSome_some, Bool.and_true]
    split
    · exact key _ _ (displaySyscallOut_prints F o c)
    · exact key _ (Py.pure ()) (Echoes.pure ())

theorem sayAll_prints {σ : Type} (ts : List Str) : Echoes (sayAll (σ := σ) ts) (Py.pure ()) := by
  intro c
  rw [sayAll_eq]
  exact ⟨rfl, rfl⟩

theorem straceHandleOut_prints (fuel : Nat) (C : StraceCfg) (F : LineView) (r : Except Exc Event) (code : Nat) :
    Echoes (straceHandleOut K fuel C F r code) (straceHandle K fuel C r code) := by
  cases r with
  | ok ev => exact (straceSyscallOut_prints fuel C F _).bind fun _ => Echoes.pure _
  | error e =>
    cases e with
    | event ev =>
      cases ev with
      | exit o a b => exact (processExitedOut_prints C F o a b).bind fun _ => Echoes.pure _
      | signal o n =>
        intro d
        exact ((Echoes.inside (eventDisplay K o)).bind (f := fun _ =>
          Py.bind (sayAll (F.signal d.inner o n)) fun _ =>
          Py.bind (inside (procSyscall K o n)) fun _ => Py.pure (signalToExitcode n)) (g := fun _ =>
          Py.bind (procSyscall K o n) fun _ => Py.pure (signalToExitcode n)) fun _ e => by
            rw [Py.run_bind_ok (sayAll_eq _ e)]
            exact (Echoes.inside (procSyscall K o n)).bind (fun _ => Echoes.pure _) _) d
      | newProcess q => exact (Echoes.say _ (Echoes.inside _)).bind fun _ => Echoes.pure _
      | execution o => exact (Echoes.say _ (Echoes.inside _)).bind fun _ => Echoes.pure _
    | _ => exact Echoes.raise _

theorem straceLoopOut_prints (fuel : Nat) (C : StraceCfg) (F : LineView) (n code : Nat) :
    Echoes (straceLoopOut K fuel C F n code) (straceLoop K fuel C n code) := by
  induction n generalizing code with
  | zero => exact Echoes.raise _
  | succ n ih =>
    intro d
    unfold straceLoopOut straceLoop
    by_cases h : length d.inner = 0
    · rw [if_pos h, if_pos h]; exact ⟨rfl, rfl⟩
    · rw [if_neg h, if_neg h]
      exact Echoes.bind (m := straceTurnOut K fuel C F code) (n := straceTurn K fuel C code)
        (fun d => straceHandleOut_prints fuel C F _ code ⟨(waitSyscall K fuel none d.inner).2, d.out⟩) (fun c => ih c) d

/-- C107. Printing does not change what `strace.py` does: with its output removed the loop is the one of C38 to C41. -/
theorem C107_same (fuel : Nat) (C : StraceCfg) (F : LineView) (o : Nat) (d : Con DSt) :
    (syscallTraceOut K fuel C F o d).1 = (syscallTrace K fuel C o d.inner).1 ∧
    (syscallTraceOut K fuel C F o d).2.inner = (syscallTrace K fuel C o d.inner).2 :=
  (Echoes.inside _).bind (fun _ => straceLoopOut_prints fuel C F fuel 0) d

/-! ### Lines -/

theorem ljust_column (text : Str) : Column text (ljust 40 text) := by
  refine ⟨List.replicate (40 - text.length) ' ', rfl, fun c hc => (List.mem_replicate.1 hc).2, ?_, ?_⟩
  · intro h
    unfold ljust
    rw [List.length_append, List.length_replicate]
    omega
  · intro h
    rw [show 40 - text.length = 0 by omega]
    rfl

/-- C107. The line of a call. -/
theorem C107_line (F : LineView) (pid : Nat) (c : SysObj) : CallLine F pid c (callLine F pid c) := by
  refine ⟨pyDec pid, formatAddress F.arch (F.ip c), if c.result.isSome then ljust 40 (F.call c) ++ " = ".toList ++ F.result c else F.call c,
    decNumber_pyDec pid, formatAddress_text _ _, ?_, ?_, ?_⟩
  · intro h
    rw [h]
    rfl
  · intro h
    refine ⟨ljust 40 (F.call c), ljust_column _, ?_⟩
    rw [if_pos (Option.isSome_iff_ne_none.2 h)]
  · unfold callLine
    cases F.showPid <;> cases F.showIp <;> simp

theorem exitMessage_text (signames : List (Nat × Str)) (pid : Nat) (signum exitcode : Option Nat) :
    EndText signames pid signum exitcode (starred (processExitMessage signames pid signum exitcode)) := by
  refine ⟨pyDec pid, if signum.getD 0 ≠ 0 then "killed by signal ".toList ++ signalName signames (signum.getD 0) else
    match exitcode with
    | some code => if code = 0 then "exited normally".toList else "exited with code ".toList ++ pyDec code
    | none => "terminated abnormally".toList, decNumber_pyDec pid, ?_, ?_, ?_, ?_, ?_⟩
  · have a1 : "*** Process ".toList = "*** ".toList ++ "Process ".toList := by decide
    have a2 : " killed by signal ".toList = ' ' :: "killed by signal ".toList := by decide
    have a3 : " exited normally".toList = ' ' :: "exited normally".toList := by decide
    have a4 : " exited with code ".toList = ' ' :: "exited with code ".toList := by decide
    have a5 : " terminated abnormally".toList = ' ' :: "terminated abnormally".toList := by decide
    unfold starred processExitMessage
    rw [a1, a2, a3, a4, a5]
    generalize "*** ".toList = b0, "Process ".toList = b1, "killed by signal ".toList = b2, "exited normally".toList = b3,
      "exited with code ".toList = b4, "terminated abnormally".toList = b5, " ***".toList = b6
    by_cases h : signum.getD 0 ≠ 0
    · simp only [if_pos h, List.append_assoc, List.cons_append]
    · simp only [if_neg h]
      cases exitcode with
      | none => simp only [List.append_assoc, List.cons_append]
      | some n =>
        by_cases hn : n = 0
        · simp only [if_pos hn, List.append_assoc, List.cons_append]
        · simp only [if_neg hn, List.append_assoc, List.cons_append]
  · rintro n hn rfl
    rw [Option.getD_some, if_pos hn]
  · rintro rfl rfl
    rfl
  · rintro n hn rfl rfl
    refine ⟨pyDec n, decNumber_pyDec n, ?_⟩
    simp only [Option.getD_none, ne_eq, not_true, if_false, hn]
  · rintro rfl rfl
    rfl

/-! ### Turns -/

theorem displaySyscallOut_ok {F : LineView} {o : Nat} {c : SysObj} {d e : Con DSt} (h : displaySyscallOut K F o c d = (.ok (), e)) :
    e.inner.heap = d.inner.heap ∧ e.out = d.out ++ [callLine F (d.inner.heap o).pid c] := by
  obtain ⟨_, u, h1, h2⟩ := Py.ok_of_bind h
  have h3 : displaySyscall K o d.inner = (.ok (), u.inner) ∧ u.out = d.out := by
    unfold inside at h1
    injection h1 with h4 h5
    rw [← h5, ← h4]
    exact ⟨rfl, rfl⟩
  have hh := eventDisplay_heap h3.1
  unfold say at h2
  injection h2 with _ h2
  rw [← h2, ← h3.2, ← hh]
  exact ⟨rfl, rfl⟩

theorem inside_ok {σ α : Type} {m : Py σ α} {d e : Con σ} {a : α} (h : inside m d = (.ok a, e)) :
    m d.inner = (.ok a, e.inner) ∧ e.out = d.out := by
  unfold inside at h
  injection h with h4 h5
  rw [← h5, ← h4]
  exact ⟨rfl, rfl⟩

theorem straceSyscallOut_lines {fuel : Nat} {C : StraceCfg} {F : LineView} {ev : Event} {d e : Con DSt} (ho : ev.proc < d.inner.next)
    (h : straceSyscallOut K fuel C F ev.proc d = (.ok (), e)) : ∃ lines, e.out = d.out ++ lines ∧ TurnLines K C F d.inner (.ok ev) lines := by
  obtain ⟨r, u, h1, h⟩ := Py.ok_of_bind h
  obtain ⟨h1, hu⟩ := inside_ok h1
  obtain ⟨_, w, h2, h⟩ := Py.ok_of_bind h
  obtain ⟨_, hw⟩ := inside_ok h
  have hpid := sysEvent_pid fuel C.sys ev.proc d.inner u.inner r ho h1
  have hshow : ∀ c, r = some c → (c.result.isSome || C.enter) = true → w.out = d.out ++ [callLine F (d.inner.heap ev.proc).pid c] := by
    rintro c rfl hc
    simp only [hc, if_true] at h2
    have := (displaySyscallOut_ok h2).2
    rwa [hu, hpid] at this
  have hquiet : (r = none ∨ ∃ c, r = some c ∧ (c.result.isSome || C.enter) = false) → w.out = d.out ++ [] := by
    rw [List.append_nil, ← hu]
    rintro (rfl | ⟨c, rfl, hc⟩)
    · injection h2 with _ h2
      rw [h2]
    · simp only [hc, Bool.false_eq_true, if_false] at h2
      injection h2 with _ h2
      rw [h2]
  rw [hw]
  by_cases hn : (d.inner.heap ev.proc).ss.nextExit = true
  · obtain ⟨_, _, he1, he2⟩ := C38_end K C.sys fuel d.inner u.inner ev.proc r ho hn h1
    cases hs : (d.inner.heap ev.proc).ss.syscall with
    | none =>
      refine ⟨[], hquiet (Or.inl (he2 hs)), ?_⟩
      show if _ then _ else _
      rw [if_pos hn, hs]
    | some c =>
      obtain ⟨x, st, hk, hr⟩ := he1 c hs
      refine ⟨_, hshow _ hr rfl, ?_⟩
      show if _ then _ else _
      rw [if_pos hn, hs]
      exact ⟨x, _, ⟨st, hk⟩, rfl, C107_line F _ _⟩
  · have hn' : (d.inner.heap ev.proc).ss.nextExit = false := by simpa using hn
    obtain ⟨regs, st, hk, _, hi, hr⟩ := C38_start K C.sys fuel d.inner u.inner ev.proc r hn' h1
    by_cases hq : C.enter = false ∨ ((d.inner.heap ev.proc).ss.hasCallback = true ∧ C.sys.ignore (C.sys.name regs) = true)
    · refine ⟨[], hquiet ?_, ?_⟩
      · cases hr' : r with
        | none => exact Or.inl rfl
        | some c =>
          refine Or.inr ⟨c, rfl, ?_⟩
          rcases hq with hq | ⟨hq1, hq2⟩
          · by_cases hg : (d.inner.heap ev.proc).ss.hasCallback = true ∧ C.sys.ignore (C.sys.name regs) = true
            · rw [hi hg.1 hg.2] at hr'; cases hr'
            · obtain ⟨x, hx, _, hx2⟩ := hr (by
                cases ha : (d.inner.heap ev.proc).ss.hasCallback
                · exact Or.inl rfl
                · cases hb : C.sys.ignore (C.sys.name regs)
                  · exact Or.inr rfl
                  · exact absurd ⟨ha, hb⟩ hg)
              rw [hr'] at hx
              injection hx with hx
              rw [hx, hx2, hq]
              rfl
          · rw [hi hq1 hq2] at hr'; cases hr'
      · show if _ then _ else _
        rw [if_neg hn]
        refine ⟨regs, ⟨st, hk⟩, fun _ => rfl, fun he h' => ?_⟩
        rcases hq with hq | ⟨hq1, hq2⟩
        · rw [hq] at he; cases he
        · rcases h' with h' | h'
          · rw [hq1] at h'; cases h'
          · rw [hq2] at h'; cases h'
    · have he : C.enter = true := by
        cases hh : C.enter
        · exact absurd (Or.inl hh) hq
        · rfl
      have hv : (d.inner.heap ev.proc).ss.hasCallback = false ∨ C.sys.ignore (C.sys.name regs) = false := by
        cases ha : (d.inner.heap ev.proc).ss.hasCallback
        · exact Or.inl rfl
        · cases hb : C.sys.ignore (C.sys.name regs)
          · exact Or.inr rfl
          · exact absurd (Or.inr ⟨ha, hb⟩) hq
      obtain ⟨x, hx, hx1, hx2⟩ := hr hv
      refine ⟨_, hshow x hx (by rw [he, Bool.or_true]), ?_⟩
      show if _ then _ else _
      rw [if_neg hn]
      refine ⟨regs, ⟨st, hk⟩, fun h' => absurd h' hq, fun _ _ => ⟨_, rfl, ?_⟩⟩
      have hid : x.ident = d.inner.log.length := by
        unfold sysEvent at h1
        rw [hn'] at h1
        obtain ⟨_, _, _, hr', _⟩ := sysEnter_ok C.sys ev.proc d.inner u.inner r h1
        rw [hx] at hr'
        split at hr'
        · cases hr'
        · injection hr' with hr'
          rw [hr']
      have hxe : x = ⟨d.inner.log.length, regs, none⟩ := by rw [← hx1, ← hx2, ← hid]
      rw [← hxe]
      exact C107_line F _ x

theorem processExitedOut_lines {C : StraceCfg} {F : LineView} {o : Nat} {signum exitcode : Option Nat} {d e : Con DSt}
    (h : processExitedOut K C F o signum exitcode d = (.ok (), e)) :
    ∃ lines, e.out = d.out ++ lines ∧ TurnLines K C F d.inner (.error (.event (.exit o signum exitcode))) lines := by
  obtain ⟨_, u, h1, h2⟩ := Py.ok_of_bind h
  have hout : e.out = u.out ++ [starred (processExitMessage F.signames (u.inner.heap o).pid signum exitcode)] := by
    injection h2 with _ h2
    rw [← h2]
  have key : ∀ cut, u.out = d.out ++ cut → u.inner.heap = d.inner.heap →
      (∀ c, C.enter = false → (d.inner.heap o).ss.nextExit = true → (d.inner.heap o).ss.syscall = some c → ∃ line, cut = [line] ∧ CallLine F (d.inner.heap o).pid c line) →
      (C.enter = true ∨ (d.inner.heap o).ss.nextExit = false ∨ (d.inner.heap o).ss.syscall = none → cut = []) →
      ∃ lines, e.out = d.out ++ lines ∧ TurnLines K C F d.inner (.error (.event (.exit o signum exitcode))) lines := by
    intro cut hcut hheap ha hb
    refine ⟨cut ++ [starred (processExitMessage F.signames (d.inner.heap o).pid signum exitcode)], ?_, cut, _, rfl, exitMessage_text _ _ _ _, ha, hb⟩
    rw [hout, hcut, hheap, List.append_assoc]
  have quiet : u = d → (C.enter = true ∨ (d.inner.heap o).ss.nextExit = false ∨ (d.inner.heap o).ss.syscall = none) →
      ∃ lines, e.out = d.out ++ lines ∧ TurnLines K C F d.inner (.error (.event (.exit o signum exitcode))) lines := by
    intro hu hc
    refine key [] (by rw [hu, List.append_nil]) (by rw [hu]) ?_ fun _ => rfl
    intro c h1 h2 h3
    rcases hc with hc | hc | hc
    · rw [h1] at hc; cases hc
    · rw [h2] at hc; cases hc
    · rw [h3] at hc; cases hc
  cases hs : (d.inner.heap o).ss.syscall with
  | none =>
    rw [hs] at h1
    injection h1 with _ h1
    exact quiet h1.symm (Or.inr (Or.inr hs))
  | some c =>
    rw [hs] at h1
    by_cases hc : ((d.inner.heap o).ss.nextExit && !C.enter) = true
    · simp only [hc, if_true] at h1
      obtain ⟨h3, h4⟩ := displaySyscallOut_ok h1
      refine key _ h4 h3 ?_ ?_
      · intro c' _ _ h'
        rw [hs] at h'
        injection h' with h'
        subst h'
        exact ⟨_, rfl, C107_line F _ c⟩
      · intro h'
        rw [Bool.and_eq_true] at hc
        rcases h' with h' | h' | h'
        · rw [h'] at hc; exact absurd hc.2 (by decide)
        · rw [h'] at hc; exact absurd hc.1 (by decide)
        · rw [hs] at h'; cases h'
    · simp only [hc, if_false] at h1
      injection h1 with _ h1
      refine quiet h1.symm ?_
      cases ha : C.enter
      · cases hb : (d.inner.heap o).ss.nextExit
        · exact Or.inr (Or.inl rfl)
        · rw [ha, hb] at hc; exact absurd rfl hc
      · exact Or.inl rfl

/-- C107. What is printed in a turn of the loop. -/
theorem C107_turn {fuel : Nat} {C : StraceCfg} {F : LineView} {r : Except Exc Event} {code code' : Nat} {d e : Con DSt}
    (hr : ∀ ev, r = .ok ev → ev.proc < d.inner.next) (h : straceHandleOut K fuel C F r code d = (.ok code', e)) :
    ∃ lines, e.out = d.out ++ lines ∧ TurnLines K C F d.inner r lines := by
  cases r with
  | ok ev =>
    obtain ⟨_, u, h1, h2⟩ := Py.ok_of_bind h
    injection h2 with _ h2
    subst h2
    exact straceSyscallOut_lines (hr ev rfl) h1
  | error x =>
    cases x with
    | event ev =>
      cases ev with
      | exit o a b =>
        obtain ⟨_, u, h1, h2⟩ := Py.ok_of_bind h
        injection h2 with _ h2
        subst h2
        exact processExitedOut_lines h1
      | signal o n =>
        obtain ⟨_, u, h1, h⟩ := Py.ok_of_bind h
        rw [Py.run_bind_ok (sayAll_eq _ u)] at h
        obtain ⟨_, w, h2, h⟩ := Py.ok_of_bind h
        injection h with _ h
        subst h
        refine ⟨_, ?_, rfl⟩
        rw [(inside_ok h2).2]
        show u.out ++ _ = _
        rw [(inside_ok h1).2]
      | newProcess q =>
        obtain ⟨_, u, h1, h⟩ := Py.ok_of_bind h
        injection h with _ h
        subst h
        unfold straceNewProcessOut at h1
        rw [Py.run_bind_ok (say_eq _ d)] at h1
        refine ⟨_, (inside_ok h1).2, pyDec (d.inner.heap q).pid, decNumber_pyDec _, ?_⟩
        unfold starred
        simp
      | execution o =>
        obtain ⟨_, u, h1, h⟩ := Py.ok_of_bind h
        injection h with _ h
        subst h
        unfold processExecutionOut at h1
        rw [Py.run_bind_ok (say_eq _ d)] at h1
        refine ⟨_, (inside_ok h1).2, pyDec (d.inner.heap o).pid, decNumber_pyDec _, ?_⟩
        unfold starred
        simp
    | _ => cases h

theorem straceLoopOut_turns (hz : RealPids K) (fuel : Nat) (C : StraceCfg) (F : LineView) : ∀ (n : Nat) (code c0 : Nat) (s0 : DSt) (d e : Con DSt) (c : Nat)
    (es : List (Except Exc Event × DSt)) (lines out : List Str), Good s0 → Turns K fuel C s0 c0 es d.inner code → d.out = out ++ lines → RunLines K C F es lines →
    straceLoopOut K fuel C F n code d = (.ok c, e) →
    ∃ es' lines', Turns K fuel C s0 c0 es' e.inner c ∧ iterate e.inner = [] ∧ e.out = out ++ lines' ∧ RunLines K C F es' lines' := by
  intro n
  induction n with
  | zero => intro code c0 s0 d e c es lines out _ _ _ _ h; cases h
  | succ n ih =>
    intro code c0 s0 d e c es lines out hg hes hout hl h
    unfold straceLoopOut at h
    by_cases h0 : length d.inner = 0
    · rw [if_pos h0] at h
      injection h with h1 h2
      injection h1 with h1
      subst h1 h2
      exact ⟨es, lines, hes, List.length_eq_zero_iff.1 h0, hout, hl⟩
    · rw [if_neg h0] at h
      obtain ⟨c1, u, h1, h⟩ := Py.ok_of_bind h
      have hgt := (turns_acts hz hes hg).1
      have hr : ∀ ev, (waitSyscall K fuel none d.inner).1 = .ok ev → ev.proc < (waitSyscall K fuel none d.inner).2.next := by
        intro ev he
        obtain ⟨o, hev, _, _, ho, _⟩ := waitSyscall_ok hz hgt fuel ev (v := (waitSyscall K fuel none d.inner).2) (by rw [← he])
        rw [hev]; exact ho
      obtain ⟨more, hm, ht⟩ := C107_turn (d := ⟨(waitSyscall K fuel none d.inner).2, d.out⟩) hr h1
      have hin := straceHandleOut_prints (K := K) fuel C F (waitSyscall K fuel none d.inner).1 code ⟨(waitSyscall K fuel none d.inner).2, d.out⟩
      have h1' : straceHandleOut K fuel C F (waitSyscall K fuel none d.inner).1 code ⟨(waitSyscall K fuel none d.inner).2, d.out⟩ = (.ok c1, u) := h1
      rw [h1'] at hin
      have hh : straceHandle K fuel C (waitSyscall K fuel none d.inner).1 code (waitSyscall K fuel none d.inner).2 = (.ok c1, u.inner) :=
        Prod.ext hin.1.symm hin.2.symm
      refine ih c1 c0 s0 u e c _ (lines ++ more) out hg (.snoc hes ?_ rfl hh) ?_ (.snoc hl ht) h
      · intro hn
        exact h0 (by show d.inner.list.length = 0; rw [show d.inner.list = [] from hn]; rfl)
      · rw [hm]
        show d.out ++ more = _
        rw [hout, List.append_assoc]

/-- C107. What a whole run prints: for each event in turn its lines, and nothing else. -/
theorem C107_run (hz : RealPids K) (fuel : Nat) (C : StraceCfg) (F : LineView) (o code : Nat) (d e : Con DSt) (hs : Reach K d.inner)
    (h : syscallTraceOut K fuel C F o d = (.ok code, e)) :
    ∃ u es lines, prepareProcess K o d.inner = (.ok (), u) ∧ Turns K fuel C u 0 es e.inner code ∧ iterate e.inner = [] ∧ e.out = d.out ++ lines ∧
      RunLines K C F es lines := by
  obtain ⟨_, u, h1, h2⟩ := Py.ok_of_bind h
  obtain ⟨h1, hout⟩ := inside_ok h1
  have hg := (reach_good hz hs).prepareProcess (K := K) o
  rw [h1] at hg
  obtain ⟨es, lines, ha, hb, hc, hd⟩ := straceLoopOut_turns hz fuel C F fuel 0 0 u.inner u e code [] [] d.out hg .nil (by rw [hout, List.append_nil]) .nil h2
  exact ⟨u.inner, es, lines, h1, ha, hb, hc, hd⟩

/-! ### Filters in a run -/

theorem procSyscall_callback {o n : Nat} {s t : DSt} (h : procSyscall K o n s = (.ok (), t)) (i : Nat) : (t.heap i).ss = (s.heap i).ss := by
  rw [(procSyscall_ok h).2]
  rw [setProc_heap]
  split
  · rename_i hi; rw [hi]
  · rfl

theorem sysEvent_callback {fuel : Nat} {C : SysCfg} {o i : Nat} {s t : DSt} {r : Option SysObj} (ho : o < s.next) (hi : i < s.next)
    (h : sysEvent K fuel C o s = (.ok r, t)) : (t.heap i).ss.hasCallback = (s.heap i).ss.hasCallback := by
  by_cases he : o = i
  · subst he
    unfold sysEvent at h
    split at h
    · rw [(sysExit_ok fuel o s t ho r h).2.2]
    · obtain ⟨_, _, _, _, hs⟩ := sysEnter_ok C o s t r h
      rw [hs]
  · have := sysEvent_other (K := K) fuel C o i s hi he
    rw [h] at this
    rw [this]

theorem prepareProcess_callback {o i : Nat} {s t : DSt} (h : prepareProcess K o s = (.ok (), t)) :
    (t.heap o).ss.hasCallback = true ∧ ((s.heap i).ss.hasCallback = true → (t.heap i).ss.hasCallback = true) := by
  obtain ⟨_, u, h1, h2⟩ := Py.ok_of_bind h
  have ho := updSys_ss o (fun ss => { ss with hasCallback := true }) u
  rw [h2] at ho
  refine ⟨by rw [ho], fun hi => ?_⟩
  by_cases he : i = o
  · rw [he, ho]
  · have hx : (t.heap i) = u.heap i := by
      injection h2 with _ h2
      rw [← h2]
      show (setProc u o _).heap i = _
      rw [setProc_heap, if_neg he]
    rw [hx, procSyscall_callback h1, hi]

theorem straceHandle_callback {fuel : Nat} {C : StraceCfg} {r : Except Exc Event} {code c' i : Nat} {s t : DSt}
    (hr : ∀ ev, r = .ok ev → ev.proc < s.next) (hi : i < s.next) (h : straceHandle K fuel C r code s = (.ok c', t)) :
    ((s.heap i).ss.hasCallback = true ∨ r = .error (.event (.newProcess i))) → (t.heap i).ss.hasCallback = true := by
  intro hc
  cases r with
  | ok ev =>
    obtain ⟨_, u, h1, h⟩ := Py.ok_of_bind h
    injection h with _ h
    rw [← h]
    obtain ⟨r, t1, h2, h1⟩ := Py.ok_of_bind h1
    obtain ⟨_, t2, h3, h1⟩ := Py.ok_of_bind h1
    have hl2 : t2.heap = t1.heap := by
      split at h3
      · exact eventDisplay_heap h3
      · injection h3 with _ h3; rw [← h3]
    rw [procSyscall_callback h1, hl2, sysEvent_callback (hr ev rfl) hi h2]
    rcases hc with hc | hc
    · exact hc
    · cases hc
  | error e =>
    cases e with
    | event ev =>
      cases ev with
      | exit o a b =>
        obtain ⟨_, u, h1, h⟩ := Py.ok_of_bind h
        injection h with _ h
        rw [← h]
        have hu : u.heap = s.heap := by
          unfold processExited at h1
          split at h1
          · exact eventDisplay_heap h1
          · injection h1 with _ h1; rw [← h1]
        rw [hu]
        rcases hc with hc | hc
        · exact hc
        · cases hc
      | signal o m =>
        obtain ⟨_, u, h1, h⟩ := Py.ok_of_bind h
        obtain ⟨_, w, h2, h⟩ := Py.ok_of_bind h
        injection h with _ h
        rw [← h, procSyscall_callback h2, eventDisplay_heap h1]
        rcases hc with hc | hc
        · exact hc
        · cases hc
      | newProcess q =>
        obtain ⟨_, u, h1, h⟩ := Py.ok_of_bind h
        injection h with _ h
        rw [← h]
        obtain ⟨_, t1, h2, h1⟩ := Py.ok_of_bind h1
        have hp := prepareProcess_callback (i := i) h2
        have h1i : (t1.heap i).ss.hasCallback = true := by
          rcases hc with hc | hc
          · exact hp.2 hc
          · injection hc with hc
            injection hc with hc
            injection hc with hc
            rw [← hc]
            exact hp.1
        cases hpar : (t1.heap q).parent with
        | none => simp only [hpar] at h1; cases h1
        | some p => simp only [hpar] at h1; rw [procSyscall_callback h1]; exact h1i
      | execution o =>
        obtain ⟨_, u, h1, h⟩ := Py.ok_of_bind h
        injection h with _ h
        rw [← h, procSyscall_callback h1]
        rcases hc with hc | hc
        · exact hc
        · cases hc
    | _ => cases h

theorem ReportedTurns_turns {fuel : Nat} {C : StraceCfg} {s t : DSt} {code c : Nat} {es : List (Except Exc Event × DSt)}
    (h : ReportedTurns K fuel C s code es t c) : Turns K fuel C s code es t c := by
  induction h with
  | nil => exact .nil
  | snoc _ h1 h2 _ h3 ih => exact .snoc ih h1 h2 h3

theorem reported_callback (hz : RealPids K) {fuel : Nat} {C : StraceCfg} {s t : DSt} {code c : Nat} {es : List (Except Exc Event × DSt)} (hs : Good s)
    (hall : ∀ o ∈ iterate s, (s.heap o).ss.hasCallback = true) (h : ReportedTurns K fuel C s code es t c) :
    (∀ o ∈ iterate t, (t.heap o).ss.hasCallback = true) ∧
    ∀ ev v, (.ok ev, v) ∈ es → (v.heap ev.proc).ss.hasCallback = true := by
  induction h with
  | nil => exact ⟨hall, fun ev v hm => by cases hm⟩
  | @snoc es t v w c c' r h hne hwait hrep hh ih =>
    have hgt := (turns_acts hz (ReportedTurns_turns h) hs).1
    have hgv : Good v := by
      have := hgt.waitSyscall hz fuel
      rwa [hwait] at this
    have hss : ∀ o, o < t.next → (v.heap o).ss = (t.heap o).ss := by
      intro o ho
      have := (runOp_noSys (K := K) fuel (.waitSyscall none) t).ss ho (fun _ h => h)
      rw [show (runOp K fuel (.waitSyscall none) t).2 = (waitSyscall K fuel none t).2 from void_snd _ t, hwait] at this
      exact this
    have hv : ∀ o ∈ iterate v, (v.heap o).ss.hasCallback = true ∨ r = .error (.event (.newProcess o)) := by
      intro o ho
      rcases hrep o ho with h1 | h1
      · exact Or.inl (by rw [hss o (hgt.reg.alloc o h1)]; exact ih.1 o h1)
      · exact Or.inr h1
    have hr : ∀ ev, r = .ok ev → ev.proc < v.next ∧ ev.proc ∈ v.list := by
      rintro ev rfl
      obtain ⟨o, hev, _, hl, ho, _⟩ := waitSyscall_ok hz hgt fuel ev hwait
      rw [hev]; exact ⟨ho, hl⟩
    have hlist := straceHandle_list hz fuel C r c c' v w hgv (fun ev he => (hr ev he).1) hh
    refine ⟨fun o ho => ?_, fun ev v' hm => ?_⟩
    · have ho' : o ∈ v.list := by rw [← hlist]; exact ho
      exact straceHandle_callback (fun ev he => (hr ev he).1) (hgv.reg.alloc o ho') hh (hv o ho')
    · rcases List.mem_append.1 hm with hm | hm
      · exact ih.2 ev v' hm
      · rw [List.mem_singleton] at hm
        injection hm with h1 h2
        subst h1 h2
        rcases hv ev.proc (hr ev rfl).2 with h1 | h1
        · exact h1
        · cases h1

/-- C107. As long as processes are registered by the events that report them, every process that stops at a system call has the filter of
C41. -/
theorem C107_filter_partial (hz : RealPids K) {fuel : Nat} {C : StraceCfg} {s t : DSt} {code c : Nat} {es : List (Except Exc Event × DSt)}
    (hs : AtLoop K fuel C s) (hall : ∀ o ∈ iterate s, (s.heap o).ss.hasCallback = true) (h : ReportedTurns K fuel C s code es t c) :
    (∀ o ∈ iterate t, (t.heap o).ss.hasCallback = true) ∧
    ∀ ev v, (.ok ev, v) ∈ es → (v.heap ev.proc).ss.hasCallback = true := reported_callback hz (atLoop_good hz hs) hall h

/-- C107. In a run of `strace.py` on one new process, a call that the filters leave out is not printed. -/
theorem C107_quiet_partial (hz : RealPids K) {fuel : Nat} {C : StraceCfg} {F : LineView} {s u t : DSt} {o c : Nat} {es : List (Except Exc Event × DSt)}
    (hs : Reach K s) (ho : iterate s = [o]) (hu : prepareProcess K o s = (.ok (), u)) (h : ReportedTurns K fuel C u 0 es t c)
    {ev : Event} {v : DSt} (hm : (.ok ev, v) ∈ es) {lines : List Str} (hl : TurnLines K C F v (.ok ev) lines) (hn : (v.heap ev.proc).ss.nextExit = false)
    (hi : ∀ regs st, K v.log (.inspect ev.proc (v.heap ev.proc).pid) = .ok regs st → C.sys.ignore (C.sys.name regs) = true) : lines = [] := by
  have hg := (reach_good hz hs).prepareProcess (K := K) o
  rw [hu] at hg
  have hall : ∀ i ∈ iterate u, (u.heap i).ss.hasCallback = true := by
    intro i hi
    have hlu : u.list = s.list := by
      obtain ⟨_, w, h1, h2⟩ := Py.ok_of_bind hu
      injection h2 with _ h2
      rw [← h2, ← procSyscall_list h1]
      rfl
    have hi' : i ∈ s.list := by rw [← hlu]; exact hi
    rw [show s.list = [o] from ho, List.mem_singleton] at hi'
    rw [hi']
    exact (prepareProcess_callback (i := o) hu).1
  have hcb := (reported_callback hz hg hall h).2 ev v hm
  have hl : if _ then _ else _ := hl
  rw [if_neg (by rw [hn]; decide)] at hl
  obtain ⟨regs, ⟨st, hk⟩, h1, _⟩ := hl
  exact h1 (Or.inr ⟨hcb, hi regs st hk⟩)

/-! ### The list of system calls -/

theorem entryLine_eq (e : Nat × Str) : EntryLine e (padLeft 3 (pyDec e.1) ++ ": ".toList ++ e.2) := by
  obtain ⟨pad, h1, h2, h3⟩ := padLeft_spec 3 (pyDec e.1)
  refine ⟨pyDec e.1, pad, decNumber_pyDec _, by rw [h2], h1, ?_, ?_⟩
  · intro h
    rw [List.length_append, h3]
    omega
  · intro h
    exact List.length_eq_zero_iff.1 (by omega)

/-- C107. `--list-syscalls` prints every entry of the table once, ordered by number. -/
theorem C107_list (names : List (Nat × Str)) (hn : (names.map Prod.fst).Nodup) :
    ∃ sorted, sorted.Perm names ∧ sorted.Pairwise (fun a b => a.1 < b.1) ∧ List.Forall₂ EntryLine sorted (listSyscalls names) := by
  refine ⟨names.mergeSort fun a b => decide (a.1 ≤ b.1), List.mergeSort_perm _ _, ?_, ?_⟩
  · have hle := List.pairwise_mergeSort (le := fun a b : Nat × Str => decide (a.1 ≤ b.1)) (by simp only [decide_eq_true_eq]; omega)
      (by simp only [Bool.or_eq_true, decide_eq_true_eq]; omega) names
    have hnd : ((names.mergeSort fun a b => decide (a.1 ≤ b.1)).map Prod.fst).Nodup :=
      ((List.mergeSort_perm names _).map Prod.fst).nodup_iff.2 hn
    rw [List.nodup_iff_pairwise_ne, List.pairwise_map] at hnd
    refine (hle.and hnd).imp ?_
    rintro a b ⟨h1, h2⟩
    have h1 := of_decide_eq_true h1
    omega
  · unfold listSyscalls
    exact forall₂_map_mem _ fun e _ => entryLine_eq e

theorem createChildLine_eq (program0 args : Str) (vars : List Str) (pid : Nat) : createChildLine program0 args vars pid =
    "execve(".toList ++ program0 ++ ", ".toList ++ args ++ ", [/* ".toList ++ ("40".toList ++ " vars */]) = ".toList ++ pyDec pid) := by
  have h : ", [/* 40 vars */]) = ".toList = ", [/* ".toList ++ ("40".toList ++ " vars */]) = ".toList) := by decide
  unfold createChildLine
  rw [h]
  simp only [List.append_assoc]

theorem takeWhile_digits {ds rest : Str} (hd : ∀ c ∈ ds, isDec c = true) (hr : ∀ c, rest.head? = some c → isDec c = false) :
    (ds ++ rest).takeWhile isDec = ds := by
  induction ds with
  | nil =>
    cases rest with
    | nil => rfl
    | cons c rest => rw [List.nil_append, List.takeWhile_cons, hr c rfl]; rfl
  | cons c ds ih =>
    rw [List.cons_append, List.takeWhile_cons, hd c (List.mem_cons_self ..), if_pos rfl, ih fun c hc => hd c (List.mem_cons_of_mem _ hc)]

/-- C107. The line about a new program is right if the environment has 40 variables. -/
theorem C107_vars_partial (program0 args : Str) (vars : List Str) (pid : Nat) (hv : vars.length = 40) :
    ProgramLine program0 args vars pid (createChildLine program0 args vars pid) :=
  ⟨"40".toList, pyDec pid, by rw [hv]; decide, decNumber_pyDec pid, createChildLine_eq program0 args vars pid⟩

/-- C107 is false for the line about a new program: it says that the environment has 40 variables, and that is wrong for every other
number. -/
theorem C107_vars_refuted (program0 args : Str) (vars : List Str) (pid : Nat) (hv : vars.length ≠ 40) :
    ¬ ProgramLine program0 args vars pid (createChildLine program0 args vars pid) := by
  rintro ⟨count, num, h1, _, h3⟩
  rw [createChildLine_eq] at h3
  have h4 := List.append_cancel_left h3
  have h5 := congrArg (List.takeWhile isDec) h4
  have hsp : ∀ (x : Str) c, (" vars */]) = ".toList ++ x).head? = some c → isDec c = false := by
    intro x c hc
    injection hc with hc
    rw [← hc]
    decide
  rw [List.append_assoc, List.append_assoc, takeWhile_digits (by decide) (hsp _), takeWhile_digits (decNumber_iff.1 ⟨_, h1⟩).2 (hsp _)] at h5
  rw [← h5] at h1
  have h6 : decNumber "40".toList = some 40 := by decide
  rw [h6] at h1
  injection h1 with h1
  exact hv h1.symm

/-- C107. With `--fork` lines name their process. -/
theorem C107_fork (showPid fork : Bool) : showPidOption showPid fork = true ↔ showPid = true ∨ fork = true := by
  cases showPid <;> cases fork <;> decide

/-! ### Examples -/

/-- Lines with the number of the process and the address; calls and results are named by their numbers. -/
def sampleView : LineView where
  arch := ⟨true, false⟩
  signames := [(10, "SIGUSR1".toList)]
  showPid := true
  showIp := true
  call c := "read".toList ++ pyDec c.entry
  result c := pyDec (c.result.getD 0)
  ip c := 0x1000 + c.entry
  signal _ _ n := ["signal ".toList ++ pyDec n]

example : callLine sampleView 7 ⟨0, 3, some 5⟩ =
    ("[7][0x0000000000001003] read3".toList ++ List.replicate 35 ' ' ++ " = 5".toList) ∧
    callLine sampleView 7 ⟨0, 3, none⟩ = "[7][0x0000000000001003] read3".toList := by decide +kernel

example : callLine { sampleView with showPid := false, showIp := false } 7 ⟨0, 3, none⟩ = "read3".toList := by decide +kernel

example : starred (processExitMessage [(10, "SIGUSR1".toList)] 7 (some 10) none) = "*** Process 7 killed by signal SIGUSR1 ***".toList := by decide +kernel

example : (syscallTraceOut ending 9 readCfg sampleView 0 ⟨one ending, []⟩).1 = .ok 3 ∧
    (syscallTraceOut ending 9 readCfg sampleView 0 ⟨one ending, []⟩).2.out = ["signal 10".toList, "*** Process 7 exited with code 3 ***".toList] := by
  decide +kernel

/-- Process 7 stops with `SIGSTOP`; once resumed it makes a system call and exits in it. -/
def leaving : Kern := fun log c =>
  match c with
  | .waitpid (some p) _ _ =>
    if (log.filter fun e => decide (e.call = .syscall 0 7 0)).length = 0 then .ok p 0x137f
    else if (log.filter fun e => decide (e.call = .syscall 0 7 0)).length ≤ 3 then .ok p 0x857f else .ok p 0
  | .inspect _ _ => .ok 9 0
  | c => calm log c

theorem realPids_leaving : RealPids leaving := by intro log o pid st h; injection h with h _; cases h

example := C107_turn (K := leaving) (fuel := 9) (C := ⟨readCalls, false⟩) (F := sampleView) (r := .error (.event (.exit 0 none (some 3)))) (code := 0) (code' := 3)
  (d := ⟨one leaving, []⟩) (e := _) (fun ev h => by cases h) (Prod.ext (by decide +kernel) rfl)

example := C107_run (K := leaving) realPids_leaving 9 ⟨readCalls, false⟩ sampleView 0 0 ⟨one leaving, []⟩ _ (one_reach leaving) (Prod.ext (by decide +kernel) rfl)

example := C107_vars_partial "ls".toList "['ls']".toList (List.replicate 40 "A=1".toList) 7 (by decide)

example : (syscallTraceOut leaving 9 ⟨readCalls, false⟩ { sampleView with showPid := false, showIp := false } 0 ⟨one leaving, []⟩).2.out =
    ["read9".toList ++ List.replicate 35 ' ' ++ " = 9".toList, "read9".toList, "*** Process 7 exited normally ***".toList] := by
  decide +kernel

example : ∃ code e, Reach leaving (one leaving) ∧ RealPids leaving ∧ syscallTraceOut leaving 9 ⟨readCalls, false⟩ sampleView 0 ⟨one leaving, []⟩ = (.ok code, e) :=
  ⟨0, (syscallTraceOut leaving 9 ⟨readCalls, false⟩ sampleView 0 ⟨one leaving, []⟩).2, one_reach leaving, realPids_leaving,
    Prod.ext (by decide +kernel) rfl⟩

/-- As `readCalls`, but every call is left out. -/
def hiddenCalls : SysCfg := { readCalls with ignore := fun _ => true }

example : ∃ v w, iterate (one leaving) = [0] ∧
    ReportedTurns leaving 9 ⟨hiddenCalls, true⟩ (prepareProcess leaving 0 (one leaving)).2 0 [(.ok (.signal 0 0x85), v)] w 0 ∧
    (v.heap 0).ss.nextExit = false := by
  refine ⟨(waitSyscall leaving 9 none (prepareProcess leaving 0 (one leaving)).2).2, _, by decide +kernel,
    .snoc .nil (by decide +kernel) rfl ?_ (Prod.ext (by decide +kernel) rfl), by decide +kernel⟩
  decide +kernel

/-- The first turn of strace.py without any call. -/
theorem hidden_turn : ReportedTurns leaving 9 ⟨hiddenCalls, true⟩ (prepareProcess leaving 0 (one leaving)).2 0
    [(.ok (.signal 0 0x85), (waitSyscall leaving 9 none (prepareProcess leaving 0 (one leaving)).2).2)]
    (straceHandle leaving 9 ⟨hiddenCalls, true⟩ (.ok (.signal 0 0x85)) 0 (waitSyscall leaving 9 none (prepareProcess leaving 0 (one leaving)).2).2).2 0 :=
  .snoc .nil (by decide +kernel) (Prod.ext (by decide +kernel) rfl) (by decide +kernel) (Prod.ext (by decide +kernel) rfl)

example := C107_filter_partial realPids_leaving ⟨one leaving, 0, _, _, _, one_reach leaving, by decide +kernel, Prod.ext (by decide +kernel) rfl, .nil⟩ (by decide +kernel) hidden_turn

example := C107_quiet_partial (F := sampleView) realPids_leaving (one_reach leaving) (by decide +kernel) (Prod.ext (by decide +kernel) rfl) hidden_turn
  (List.mem_singleton.2 rfl) (lines := []) ⟨9, ⟨0, by decide +kernel⟩, fun _ => rfl, fun _ h => absurd h (by decide +kernel)⟩ (by decide +kernel) (fun _ _ _ => rfl)


example : ∃ sorted, sorted.Perm [(59, "execve".toList), (0, "read".toList), (1000, "x".toList)] ∧ sorted.Pairwise (fun a b => a.1 < b.1) ∧
    List.Forall₂ EntryLine sorted (listSyscalls [(59, "execve".toList), (0, "read".toList), (1000, "x".toList)]) := C107_list _ (by decide)

example : padLeft 3 (pyDec 59) ++ ": ".toList ++ "execve".toList = " 59: execve".toList := by decide +kernel

example : ¬ ProgramLine "ls".toList "['ls']".toList ["A=1".toList] 7 (createChildLine "ls".toList "['ls']".toList ["A=1".toList] 7) :=
  C107_vars_refuted _ _ _ _ (by decide)

end PT
