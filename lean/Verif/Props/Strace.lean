import Verif.Props.Debugger
import Verif.Lemmas.Strace2

/-! Properties C38 to C42: system call reports, the loop of `strace.py`, its exit code and filters. -/

namespace PT
open Spec
variable {K : Kern}

/-! Kernels used by the examples. -/

/-- Process 7 stops with `SIGSTOP`, then at system calls. -/
def calling : Kern := fun log c =>
  match c with
  | .waitpid (some p) _ _ => if log.any fun e => decide (e.call = .syscall 0 7 0) then .ok p 0x857f else .ok p 0x137f
  | .inspect _ _ => .ok log.length 0
  | c => calm log c

/-- Process 7 stops with `SIGSTOP`; once resumed it gets `SIGUSR1`; then it exits with code 3. -/
def ending : Kern := fun log c =>
  match c with
  | .waitpid (some p) _ _ =>
    if log.any fun e => decide (e.call = .syscall 0 7 10) then .ok p 0x0300
    else if log.any fun e => decide (e.call = .syscall 0 7 0) then .ok p 0x0a7f
    else .ok p 0x137f
  | c => calm log c

/-- As `ending`, but `SIGUSR1` kills the process. -/
def dying : Kern := fun log c =>
  match c with
  | .waitpid (some p) _ _ =>
    if log.any fun e => decide (e.call = .syscall 0 7 10) then .ok p 10
    else if log.any fun e => decide (e.call = .syscall 0 7 0) then .ok p 0x0a7f
    else .ok p 0x137f
  | c => calm log c

/-- Process 7 stops with `SIGSTOP`; once resumed it is killed by `SIGKILL`. -/
def killed9 : Kern := fun log c =>
  match c with
  | .waitpid (some p) _ _ =>
    if log.any fun e => decide (e.call = .syscall 0 7 0) then .ok p 9 else .ok p 0x137f
  | c => calm log c

/-- Process 7 stops with `SIGSTOP`; once resumed it forks; its child 8 exits before it is registered. -/
def orphaning : Kern := fun log c =>
  match c with
  | .waitpid (some 7) _ _ =>
    if log.any fun e => decide (e.call = .syscall 0 7 0) then .ok 7 0x1057f else .ok 7 0x137f
  | .waitpid (some 8) _ _ => .ok 8 0
  | c => calm log c

theorem realPids_calling : RealPids calling := by intro log o pid st h; injection h with h _; cases h
theorem realPids_killed9 : RealPids killed9 := by intro log o pid st h; injection h with h _; cases h
theorem realPids_orphaning : RealPids orphaning := by intro log o pid st h; injection h with h _; cases h

/-- Every system call is called `read`, none is ignored. -/
def readCalls : SysCfg where
  name _ := ['r', 'e', 'a', 'd']
  ignore _ := false

/-- As `readCalls` with `--enter`. -/
def readCfg : StraceCfg := ⟨readCalls, true⟩

/-- A debugger with the process 7. -/
def one (K : Kern) : DSt := (runOp K 9 (.addProcess 7 true none false) newDebugger).2

theorem one_reach (K : Kern) : Reach K (one K) := .call .new 9 (.addProcess 7 true none false) (by show (7 : Nat) ≠ 0; decide)

/-! ### C38 -/

/-- **C38** A new process waits for the start of a system call. -/
theorem C38_new (K : Kern) (hz : RealPids K) (s : DSt) (hs : Reach K s) (fuel pid o : Nat) (hp : pid ≠ 0)
    (isAttached : Bool) (parent : Option Nat) (isThread : Bool) (t : DSt)
    (h : addProcess K (waitEventPid K fuel) pid isAttached parent isThread s = (.ok o, t)) :
    o < t.next ∧ (t.heap o).ss.nextExit = false := by
  have hout : AddOK s t pid isAttached parent isThread o :=
    addProcess_out (fun wanted s hw hr => waitEventPid_out hz fuel wanted true s hw hr) pid hp isAttached parent
      isThread s (reach_reg hs) _ t h
  exact ⟨hout.lt, by rw [hout.heap]; rfl⟩

example := C38_new calling realPids_calling newDebugger .new 9 7 0 (by decide) true none false (one calling) rfl

/-- **C38** The reports for a process are start, end, start, end, ... from the first one on; the end of a
call is reported as the object of its start, with the registers of the start and a result; an ignored
call is ignored at both. Between the reports anything may happen: other processes, any call of the
library, failing reports. -/
theorem C38_alternate (K : Kern) (C : SysCfg) (s t : DSt) (o : Nat) (rs : List (Option SysObj))
    (ho : o < s.next) (hn : (s.heap o).ss.nextExit = false) (h : SysTrace K C o s rs t) :
    ∃ b, Alternate b rs :=
  ⟨_, (sysTrace_inv h ho hn).1.alternate⟩

example : SysTrace calling readCalls 0 (one calling) [some ⟨2, 2, none⟩, some ⟨2, 2, some 4⟩]
    (sysEvent calling 9 readCalls 0 (sysEvent calling 9 readCalls 0 (one calling)).2).2 :=
  .report (.report .nil 9 rfl) 9 rfl

/-- **C38** At the start the registers are read once and the report is made from them, unless the name
they give is ignored. -/
theorem C38_start (K : Kern) (C : SysCfg) (fuel : Nat) (s t : DSt) (o : Nat) (r : Option SysObj)
    (hn : (s.heap o).ss.nextExit = false) (h : sysEvent K fuel C o s = (.ok r, t)) :
    ∃ regs st, K s.log (.inspect o (s.heap o).pid) = .ok regs st ∧ (t.heap o).ss.nextExit = true ∧
      ((s.heap o).ss.hasCallback = true → C.ignore (C.name regs) = true → r = none) ∧
      (((s.heap o).ss.hasCallback = false ∨ C.ignore (C.name regs) = false) →
        ∃ x, r = some x ∧ x.entry = regs ∧ x.result = none) := by
  unfold sysEvent at h
  rw [hn] at h
  obtain ⟨regs, st, hk, hr, ht⟩ := sysEnter_ok C o s t r h
  refine ⟨regs, st, hk, by rw [ht], ?_, ?_⟩
  · intro h1 h2
    rw [hr, h1, h2]; rfl
  · intro h1
    refine ⟨⟨s.log.length, regs, none⟩, ?_, rfl, rfl⟩
    rw [hr]
    rcases h1 with h1 | h1
    · rw [h1]; rfl
    · rw [h1, Bool.and_false]; rfl

example := C38_start calling readCalls 9 (one calling) _ 0 (some ⟨2, 2, none⟩) (by decide) rfl

/-- **C38** At the end the result is read and added to the stored call; the state is cleared. -/
theorem C38_end (K : Kern) (C : SysCfg) (fuel : Nat) (s t : DSt) (o : Nat) (r : Option SysObj) (ho : o < s.next)
    (hn : (s.heap o).ss.nextExit = true) (h : sysEvent K fuel C o s = (.ok r, t)) :
    (t.heap o).ss.nextExit = false ∧ (t.heap o).ss.syscall = none ∧
    (∀ c, (s.heap o).ss.syscall = some c → ∃ v st, K s.log (.inspect o (s.heap o).pid) = .ok v st ∧
      r = some ⟨c.ident, c.entry, some v⟩) ∧
    ((s.heap o).ss.syscall = none → r = none) := by
  unfold sysEvent at h
  rw [if_pos hn] at h
  obtain ⟨h1, h2, h3⟩ := sysExit_ok fuel o s t ho r h
  exact ⟨by rw [h3], by rw [h3], h1, h2⟩

example : ((sysEvent calling 9 readCalls 0 (one calling)).2.heap 0).ss.nextExit = true ∧
    ((sysEvent calling 9 readCalls 0 (one calling)).2.heap 0).ss.syscall = some ⟨2, 2, none⟩ ∧
    ((one calling).heap 0).ss.nextExit = false ∧ 0 < (one calling).next := by decide

/-! ### C39 -/

/-- **C39** All requests of a complete run: `PTRACE_SYSCALL` for the first process, then for each event its
answers and nothing else. Waiting acts on no process. -/
theorem C39_run (K : Kern) (hz : RealPids K) (fuel : Nat) (C : StraceCfg) (s t : DSt) (hs : Reach K s) (o code : Nat)
    (h : syscallTrace K fuel C o s = (.ok code, t)) :
    ∃ u es g, prepareProcess K o s = (.ok (), u) ∧ Turns K fuel C u 0 es t code ∧ iterate t = [] ∧
      t.log = s.log ++ g ∧
      acting g = .syscall o (s.heap o).pid 0 :: es.flatMap fun x => answers x.2 x.1 := by
  obtain ⟨_, u, h1, h2⟩ := Py.ok_of_bind h
  obtain ⟨es, hes, he⟩ := straceLoop_turns fuel C fuel 0 0 u u t code [] .nil h2
  have hg := (reach_good hz hs).prepareProcess (K := K) o
  rw [h1] at hg
  obtain ⟨_, ha, _⟩ := turns_acts hz hes hg
  obtain ⟨g, hg1, hg2⟩ := (prepareProcess_acts h1).1.trans ha
  exact ⟨u, es, g, h1, hes, he, hg1, by rw [hg2]; rfl⟩

example : (syscallTrace ending 9 readCfg 0 (one ending)).1 = .ok 3 := by decide

theorem atLoop_good (hz : RealPids K) {fuel : Nat} {C : StraceCfg} {t : DSt} (h : AtLoop K fuel C t) : Good t := by
  obtain ⟨s, o, u, es, c, hs, _, h1, hes⟩ := h
  have hg := (reach_good hz hs).prepareProcess (K := K) o
  rw [h1] at hg
  exact (turns_acts hz hes hg).1

/-- **C39** for one turn, whatever it raises: the wait acts on nothing, then come the answers. -/
theorem C39_turn (K : Kern) (hz : RealPids K) (fuel : Nat) (C : StraceCfg) (t v w : DSt) (ht : AtLoop K fuel C t)
    (r : Except Exc Event) (code code' : Nat) (hw : waitSyscall K fuel none t = (r, v))
    (hh : straceHandle K fuel C r code v = (.ok code', w)) :
    ∃ g1 g2, v.log = t.log ++ g1 ∧ acting g1 = [] ∧ w.log = v.log ++ g2 ∧ acting g2 = answers v r := by
  have hg := atLoop_good hz ht
  have hav : Acts t (waitSyscall K fuel none t).2 [] :=
    waitSignals_acts (K := K) fuel [if t.useSysgood then SIGTRAP ||| 0x80 else SIGTRAP] none t
  rw [hw] at hav
  obtain ⟨g1, hg1, ha1⟩ := hav
  have hr : ∀ ev, r = .ok ev → ev.proc < v.next := by
    intro ev he
    subst he
    obtain ⟨o, hev, _, _, ho, _⟩ := waitSyscall_ok hz hg fuel ev hw
    rw [hev]; exact ho
  obtain ⟨g2, hg2, ha2⟩ := (straceHandle_acts fuel C r code code' v w hr hh).1
  exact ⟨g1, g2, hg1, ha1, hg2, ha2⟩

/-- **C39** for events seen by `waitpid`: the event is about a registered process `o`; the answers are one
`PTRACE_SYSCALL` for each process the event left stopped, which is registered, with the signal received
unless it is `SIGTRAP` or the stop of a system call; after the end of `execve` the trap that follows is
answered as well. -/
theorem C39_answer_partial (K : Kern) (hz : RealPids K) (fuel : Nat) (C : StraceCfg) (t v : DSt)
    (ht : AtLoop K fuel C t) (ev : Event) (hw : waitProcessEvent K fuel none true t = (.ok (some ev), v)) :
    ∃ o ∈ iterate t, EventFor v o ev ∧ (∀ p ∈ leftStopped o ev, p ∈ iterate v) ∧
      ∃ r, waitSyscall K fuel none t = (r, v) ∧
        (answers v r = resumed v (passedOn t.useSysgood ev) (leftStopped o ev) ∨
          ((∃ m, r = .ok (.signal o m)) ∧ ExecTrap v o ∧ answers v r = resumed v 0 [o, o])) := by
  have hg := atLoop_good hz ht
  obtain ⟨o, ho, hf, hl⟩ := waitProcessEvent_left hz hg fuel ev hw
  refine ⟨o, ho, hf, hl, ?_⟩
  have hraise := C32_raised K t fuel [if t.useSysgood then SIGTRAP ||| 0x80 else SIGTRAP] none ev v hw
  have hws : waitSyscall K fuel none t =
    waitSignals K fuel [if t.useSysgood then SIGTRAP ||| 0x80 else SIGTRAP] none t := rfl
  rw [hws]
  have hn : (if t.useSysgood then SIGTRAP ||| 0x80 else SIGTRAP) = (if t.useSysgood then 0x85 else 5) := by
    cases t.useSysgood <;> rfl
  cases ev with
  | exit q a b => exact ⟨_, hraise.2 (by rintro ⟨_, _, h, _⟩; cases h), Or.inl rfl⟩
  | execution q =>
    have hq : q = o := hf
    subst hq
    exact ⟨_, hraise.2 (by rintro ⟨_, _, h, _⟩; cases h), Or.inl rfl⟩
  | newProcess q =>
    have hq : (v.heap q).parent = some o := hf
    refine ⟨_, hraise.2 (by rintro ⟨_, _, h, _⟩; cases h), Or.inl ?_⟩
    show _ :: _ = _
    rw [hq]
    rfl
  | signal q m =>
    have hq : q = o := hf
    subst hq
    by_cases hm : m = if t.useSysgood then SIGTRAP ||| 0x80 else SIGTRAP
    · refine ⟨_, hraise.1 ⟨q, m, rfl, Or.inr (List.mem_singleton.2 hm)⟩, ?_⟩
      have hp : passedOn t.useSysgood (.signal q m) = 0 := by
        show (if m = _ then _ else _) = _
        rw [if_pos (by rw [hm, hn])]
      rw [hp]
      by_cases hx : ExecTrap v q
      · right
        refine ⟨⟨m, rfl⟩, hx, ?_⟩
        show (if ExecTrap v q then _ else _) = _
        rw [if_pos hx]
        rfl
      · left
        show (if ExecTrap v q then _ else _) = _
        rw [if_neg hx]
        rfl
    · refine ⟨_, hraise.2 ?_, Or.inl ?_⟩
      · rintro ⟨_, m', h, h' | h'⟩
        · cases h'
        · injection h with _ h
          exact hm (h.trans (List.mem_singleton.1 h'))
      · have hp : passedOn t.useSysgood (.signal q m) = passed m := by
          show (if m = _ then _ else _) = _
          rw [if_neg (by rw [← hn]; exact hm)]
        rw [hp]
        rfl

/-- **C39** After the end of `execve` the process is resumed, its trap is awaited, then it is resumed
again. -/
theorem C39_execTrap (K : Kern) (hz : RealPids K) (fuel : Nat) (C : StraceCfg) (t v w : DSt) (ht : AtLoop K fuel C t)
    (o m code code' : Nat) (hw : waitSyscall K fuel none t = (.ok (.signal o m), v)) (hx : ExecTrap v o)
    (hh : straceHandle K fuel C (.ok (.signal o m)) code v = (.ok code', w)) :
    ∃ g1 e1 e2 g2 st n wall, w.log = v.log ++ g1 ++ [e1, e2] ++ g2 ∧ acting g1 = [] ∧
      e1.call = .syscall o (v.heap o).pid 0 ∧
      e2.call = .waitpid (some (v.heap o).pid) false wall ∧ e2.reply = .ok (v.heap o).pid st ∧
      Spec.waitMeaning st = .signal n ∧ (n = 5 ∨ n = 0x85) ∧
      acting g2 = [.syscall o (v.heap o).pid 0] := by
  have hg := atLoop_good hz ht
  have hgv := hg.waitSyscall hz fuel
  rw [hw] at hgv
  obtain ⟨o', hev, _, _, ho, _⟩ := waitSyscall_ok hz hg fuel _ hw
  injection hev with ho' _
  subst ho'
  exact straceSyscall_trap hz hgv ho hx hh

/-- Process 7 calls `execve`. -/
def execCalls : StraceCfg := ⟨⟨fun _ => ['e', 'x', 'e', 'c', 'v', 'e'], fun _ => false⟩, true⟩

/-- The state after the start of a system call of process 7. -/
def inCall (C : StraceCfg) : DSt :=
  (straceTurn calling 9 C 0 (prepareProcess calling 0 (runOp calling 9 .enableSysgood (one calling)).2).2).2

theorem atLoop_inCall (C : StraceCfg) (h : (straceTurn calling 9 C 0
    (prepareProcess calling 0 (runOp calling 9 .enableSysgood (one calling)).2).2).1 = .ok 0) :
    AtLoop calling 9 C (inCall C) := by
  refine ⟨(runOp calling 9 .enableSysgood (one calling)).2, 0, (prepareProcess calling 0 (runOp calling 9 .enableSysgood (one calling)).2).2, _, 0,
    .call (one_reach calling) 9 .enableSysgood trivial, by decide, rfl, .snoc .nil (by decide) rfl ?_⟩
  rw [← h]
  rfl

example := C39_turn calling realPids_calling 9 execCalls (inCall execCalls) (waitSyscall calling 9 none (inCall execCalls)).2 _
  (atLoop_inCall execCalls (by decide)) (.ok (.signal 0 0x85)) 0 0 (Prod.ext (by decide) rfl) (Prod.ext (by decide) rfl)

example := C39_answer_partial calling realPids_calling 9 readCfg (inCall readCfg) _ (atLoop_inCall readCfg (by decide)) (.signal 0 0x85)
  (Prod.ext (by decide) rfl)

example : AtLoop calling 9 execCalls (inCall execCalls) := atLoop_inCall execCalls (by decide)

example : ExecTrap (waitSyscall calling 9 none (inCall execCalls)).2 0 := by decide

example : (waitSyscall calling 9 none (inCall execCalls)).1 = .ok (.signal 0 0x85) ∧
    (straceHandle calling 9 execCalls (.ok (.signal 0 0x85)) 0 (waitSyscall calling 9 none (inCall execCalls)).2).1 = .ok 0 := by
  decide

example : (waitProcessEvent calling 9 none true (inCall readCfg)).1 = .ok (some (.signal 0 0x85)) := by decide

/-- **C39** is false: process 7 forks and stops; its child ends before it is registered; `waitSyscall`
raises the end of the child instead of the new process event, so that nothing resumes process 7, which
is still registered. -/
theorem C39_refuted : ∃ (K : Kern) (C : StraceCfg) (t v w : DSt) (e : Entry) (r : Except Exc Event),
    RealPids K ∧ AtLoop K 9 C t ∧ waitSyscall K 9 none t = (r, v) ∧ straceHandle K 9 C r 0 v = (.ok 0, w) ∧
    (e ∈ v.log ∧ e ∉ t.log ∧ e.call = .waitpid (some 7) false false ∧
      ∃ st, e.reply = .ok 7 st ∧ Spec.waitMeaning st = .event 1) ∧
    getitem w 7 = some 0 ∧ answers v r = [] := by
  refine ⟨orphaning, readCfg, (prepareProcess orphaning 0 (one orphaning)).2,
    (waitSyscall orphaning 9 none (prepareProcess orphaning 0 (one orphaning)).2).2,
    (straceHandle orphaning 9 readCfg (.error (.event (.exit 1 none (some 0)))) 0
      (waitSyscall orphaning 9 none (prepareProcess orphaning 0 (one orphaning)).2).2).2,
    ⟨.waitpid (some 7) false false, .ok 7 0x1057f, [(7, 0)]⟩, .error (.event (.exit 1 none (some 0))),
    realPids_orphaning, ?_, ?_, ?_, ⟨?_, ?_, rfl, 0x1057f, rfl, ?_⟩, ?_, rfl⟩
  · exact ⟨one orphaning, 0, _, [], 0, one_reach _, by decide, rfl, .nil⟩
  · have : (waitSyscall orphaning 9 none (prepareProcess orphaning 0 (one orphaning)).2).1 =
      .error (.event (.exit 1 none (some 0))) := by decide
    rw [← this]
  · rfl
  · decide
  · decide
  · decide
  · decide

/-! ### C40 -/

/-- **C40** The exit code of a complete run, exactly: start with 0; the end of a process with exit code `c`
makes it `c`; a signal passed on makes it 128 plus the signal; the run ends with the end of the last
process. -/
theorem C40_code (K : Kern) (hz : RealPids K) (fuel : Nat) (C : StraceCfg) (s t : DSt) (hs : Reach K s) (o code : Nat)
    (ho : o ∈ iterate s) (h : syscallTrace K fuel C o s = (.ok code, t)) :
    ∃ u es t' q a b v, prepareProcess K o s = (.ok (), u) ∧
      Turns K fuel C u 0 (es ++ [(.error (.event (.exit q a b)), v)]) t code ∧
      Turns K fuel C u 0 es t' (es.foldl (fun c x => codeAfter c x.1) 0) ∧ iterate t' = [q] ∧
      code = b.getD (es.foldl (fun c x => codeAfter c x.1) 0) := by
  obtain ⟨_, u, h1, h2⟩ := Py.ok_of_bind h
  obtain ⟨es', hes, he⟩ := straceLoop_turns fuel C fuel 0 0 u u t code [] .nil h2
  have hg := (reach_good hz hs).prepareProcess (K := K) o
  rw [h1] at hg
  rcases hes.last with ⟨h0, hu, _⟩ | ⟨es, t', v, c, r, hes', h3, hne, hwait, hh⟩
  · exfalso
    subst hu
    have hl : u.list = s.list := by
      obtain ⟨_, u1, h3, h4⟩ := Py.ok_of_bind h1
      injection h4 with _ h4
      rw [← h4, ← procSyscall_list h3]
      rfl
    have he : u.list = [] := he
    have ho : o ∈ s.list := ho
    rw [← hl, he] at ho
    cases ho
  · obtain ⟨hgt, _, hc⟩ := turns_acts hz h3 hg
    obtain ⟨q, a, b, hr, hq⟩ := lastTurn hz hgt hne hwait hh he
    subst hr
    refine ⟨u, es, t', q, a, b, v, h1, .snoc h3 hne hwait hh, by rw [← hc]; exact h3, hq, ?_⟩
    rw [← hc]
    have := (straceHandle_acts fuel C _ c code v t (by intro ev hev; cases hev) hh).2
    rw [this]
    cases b <;> rfl

example := C40_code ending (by intro log o pid st h; injection h with h _; cases h) 9 readCfg (one ending) _ (one_reach ending) 0 3 (by decide) (Prod.ext (by decide) rfl)

/-- **C40** for a program whose last process exits with code `c`: the exit code is `c`. -/
theorem C40_exited_partial (K : Kern) (hz : RealPids K) (fuel : Nat) (C : StraceCfg) (s t : DSt) (hs : Reach K s)
    (o code : Nat) (u : DSt)
    (hu : prepareProcess K o s = (.ok (), u)) (es : List (Except Exc Event × DSt)) (q c : Nat) (a : Option Nat) (v : DSt)
    (hes : Turns K fuel C u 0 (es ++ [(.error (.event (.exit q a (some c))), v)]) t code) : code = c := by
  have hg := (reach_good hz hs).prepareProcess (K := K) o
  rw [hu] at hg
  rw [(turns_acts hz hes hg).2.2, List.foldl_append]
  rfl

example : ∃ es v, Turns ending 9 readCfg (prepareProcess ending 0 (one ending)).2 0
    (es ++ [(.error (.event (.exit 0 none (some 3))), v)])
    (syscallTrace ending 9 readCfg 0 (one ending)).2 3 := by
  refine ⟨[] ++ [_], _, .snoc (.snoc (r := .error (.event (.signal 0 10))) (c' := 138) .nil (by decide) rfl rfl) (by decide) rfl rfl⟩

/-- **C40** for a program whose last process is killed by a signal that it was seen to receive last: the exit
code is 128 plus the signal. -/
theorem C40_killed_partial (K : Kern) (hz : RealPids K) (fuel : Nat) (C : StraceCfg) (s t : DSt) (hs : Reach K s)
    (o code : Nat) (u : DSt) (hu : prepareProcess K o s = (.ok (), u)) (es : List (Except Exc Event × DSt))
    (q m : Nat) (v v' : DSt)
    (hes : Turns K fuel C u 0 (es ++ [(.error (.event (.signal q m)), v'), (.error (.event (.exit q (some m) none)), v)])
      t code) : code = 128 + m := by
  have hg := (reach_good hz hs).prepareProcess (K := K) o
  rw [hu] at hg
  rw [(turns_acts hz hes hg).2.2, List.foldl_append]
  rfl

example : ∃ es v v', Turns dying 9 readCfg (prepareProcess dying 0 (one dying)).2 0
    (es ++ [(.error (.event (.signal 0 10)), v'), (.error (.event (.exit 0 (some 10) none)), v)])
    (syscallTrace dying 9 readCfg 0 (one dying)).2 138 := by
  have h : Turns dying 9 readCfg (prepareProcess dying 0 (one dying)).2 0 ([] ++ [_] ++ [_])
      (syscallTrace dying 9 readCfg 0 (one dying)).2 138 :=
    .snoc (r := .error (.event (.exit 0 (some 10) none)))
      (.snoc (r := .error (.event (.signal 0 10))) (c' := 138) .nil (by decide) rfl rfl) (by decide) rfl rfl
  exact ⟨[], _, _, h⟩

/-- **C40** The exit code of the loop is the exit status of the command: nothing is left to quit. -/
theorem C40_main (K : Kern) (fuel : Nat) (C : StraceCfg) (pid : Nat) (isAttached : Bool) (s t : DSt)
    (code : Nat) (h : straceRun K fuel C pid isAttached s = (.ok (some code), t)) :
    straceMain K fuel C pid isAttached s = (.ok (some code), t) := by
  have hl : t.list = [] := by
    obtain ⟨o, u, _, h2⟩ := Py.ok_of_bind h
    cases o with
    | none => cases h2
    | some o =>
      obtain ⟨c, w, h3, h4⟩ := Py.ok_of_bind h2
      injection h4 with _ h4
      subst h4
      obtain ⟨_, x, _, h6⟩ := Py.ok_of_bind h3
      obtain ⟨_, _, he⟩ := straceLoop_turns fuel C fuel 0 0 x x w c [] .nil h6
      exact he
  unfold straceMain
  rw [h]
  show Py.bind (Py.pure (some code)) _ t = _
  have hq : quit K fuel t = (.ok (), t) := by
    unfold quit
    rw [hl]; rfl
  unfold Py.bind Py.pure
  dsimp only
  rw [hq]

example := C40_main ending 9 readCfg 7 true newDebugger (straceRun ending 9 readCfg 7 true newDebugger).2 3 (pair_eq (by decide +kernel))

/-- **C40** is false: a process that is killed by `SIGKILL` gives the exit code 0. -/
theorem C40_refuted : ∃ (K : Kern) (C : StraceCfg) (t v : DSt), RealPids K ∧
    (∃ st, v.log = (prepareProcess K 0 (one K)).2.log ++
      [⟨.waitpid (some 7) false false, .ok 7 st, [(7, 0)]⟩] ∧ Spec.waitMeaning st = .killed 9) ∧
    waitSyscall K 9 none (prepareProcess K 0 (one K)).2 = (.error (.event (.exit 0 (some 9) none)), v) ∧
    straceMain K 9 C 7 true newDebugger = (.ok (some 0), t) := by
  refine ⟨killed9, readCfg, (straceMain killed9 9 readCfg 7 true newDebugger).2,
    (waitSyscall killed9 9 none (prepareProcess killed9 0 (one killed9)).2).2, realPids_killed9, ⟨9, ?_, ?_⟩, ?_, ?_⟩
  · decide
  · decide
  · rfl
  · have : (straceMain killed9 9 readCfg 7 true newDebugger).1 = .ok (some 0) := by decide +kernel
    rw [← this]

/-! ### C41 -/

/-- **C41** A call is ignored unless no call at all is selected or it is selected, and the regular
expression does not match. -/
theorem C41_shown (T : SysTables) (space : Char → Bool) (sel : Selection) (only : List Str)
    (h : onlyFilter T space sel = some only) (regexMatch : Option (Str → Bool)) (name : Str) :
    ignoreSyscall only regexMatch name = false ↔
      ((∀ n, ¬ Selected T space sel n) ∨ Selected T space sel name) ∧
      (∀ m, regexMatch = some m → m name = false) := by
  have hm := onlyFilter_mem T space sel only h
  have he : only.isEmpty = true ↔ ∀ n, ¬ Selected T space sel n := by
    rw [List.isEmpty_iff, List.eq_nil_iff_forall_not_mem]
    exact forall_congr' fun n => not_congr (hm n)
  have hr : (match regexMatch with | some m => m name | none => false) = false ↔
      ∀ m, regexMatch = some m → m name = false := by
    cases regexMatch with
    | none => exact ⟨fun _ m h => (by cases h), fun _ => rfl⟩
    | some m => exact ⟨fun h m' h' => (by injection h' with h'; rw [← h']; exact h), fun h => h m rfl⟩
  rw [← he, ← hm name, ← hr, ← List.contains_iff_mem]
  unfold ignoreSyscall
  cases only.isEmpty <;> cases only.contains name <;> cases regexMatch <;> simp

/-- **C41** Without options nothing is selected, so that every call is shown that the regular expression
does not match. -/
theorem C41_default (T : SysTables) (space : Char → Bool) :
    onlyFilter T space ⟨none, false, false⟩ = some [] ∧ ∀ n, ¬ Selected T space ⟨none, false, false⟩ n := by
  refine ⟨rfl, ?_⟩
  rintro n (⟨t, _, h, _⟩ | ⟨h, _⟩ | ⟨h, _⟩) <;> cases h

/-- **C41** In the tracer: the start of a call of a prepared process is reported iff the call is shown. -/
theorem C41_reported (K : Kern) (T : SysTables) (space : Char → Bool) (sel : Selection) (only : List Str)
    (ho : onlyFilter T space sel = some only) (regexMatch : Option (Str → Bool)) (names : Nat → Str) (fuel : Nat)
    (s t : DSt) (o : Nat) (hn : (s.heap o).ss.nextExit = false) (hc : (s.heap o).ss.hasCallback = true)
    (r : Option SysObj) (h : sysEvent K fuel ⟨names, ignoreSyscall only regexMatch⟩ o s = (.ok r, t)) :
    ∃ regs st, K s.log (.inspect o (s.heap o).pid) = .ok regs st ∧ (r.isSome = true ↔
      ((∀ n, ¬ Selected T space sel n) ∨ Selected T space sel (names regs)) ∧
      (∀ m, regexMatch = some m → m (names regs) = false)) := by
  obtain ⟨regs, st, hk, _, h1, h2⟩ := C38_start K _ fuel s t o r hn h
  refine ⟨regs, st, hk, ?_⟩
  rw [← C41_shown T space sel only ho regexMatch]
  cases hi : ignoreSyscall only regexMatch (names regs) with
  | true =>
    rw [h1 hc hi]
    exact ⟨fun h => (by cases h), fun h => (by cases h)⟩
  | false =>
    obtain ⟨x, hx, _⟩ := h2 (Or.inr hi)
    rw [hx]
    exact ⟨fun _ => rfl, fun _ => rfl⟩

/-- Is a call of object `o` formatted for display in this part of the log? -/
def shows (o : Nat) (g : List Entry) : Prop := ∃ e ∈ g, ∃ pid, e.call = .display o pid

/-- **C41** In the tracer: a report is displayed iff it is not ignored and is the end of a call or `--enter`
is given. -/
theorem C41_displayed (K : Kern) (fuel : Nat) (C : StraceCfg) (s u t : DSt) (o : Nat) (r : Option SysObj)
    (hr : sysEvent K fuel C.sys o s = (.ok r, u)) (h : straceSyscall K fuel C o s = (.ok (), t)) :
    ∃ g, t.log = u.log ++ g ∧ (shows o g ↔ ∃ c, r = some c ∧ (c.result.isSome = true ∨ C.enter = true)) := by
  obtain ⟨r', u', h1, h2⟩ := Py.ok_of_bind h
  rw [hr] at h1
  injection h1 with h1 h3
  injection h1 with h1
  subst h1 h3
  obtain ⟨_, w, h4, h5⟩ := Py.ok_of_bind h2
  have ht := (procSyscall_ok h5).2
  by_cases hd : displayed C.enter r = true
  · rw [if_pos hd] at h4
    have hw : w = _ := eventDisplay_ok h4
    refine ⟨[⟨.display o (u.heap o).pid, K u.log (.display o (u.heap o).pid), u.dict⟩] ++
      [⟨.syscall o (w.heap o).pid (filterSignal 0), K w.log (.syscall o (w.heap o).pid (filterSignal 0)), w.dict⟩], ?_, ?_⟩
    · rw [ht, hw, ← List.append_assoc]; rfl
    · refine ⟨fun _ => ?_, fun _ => ⟨_, List.mem_cons_self, _, rfl⟩⟩
      cases r with
      | none => cases hd
      | some c => exact ⟨c, rfl, by simpa [displayed] using hd⟩
  · rw [if_neg hd] at h4
    injection h4 with _ h4
    subst h4
    refine ⟨[⟨.syscall o (u.heap o).pid (filterSignal 0), K u.log (.syscall o (u.heap o).pid (filterSignal 0)), u.dict⟩],
      by rw [ht]; rfl, ?_⟩
    constructor
    · rintro ⟨e, he, pid, hc⟩
      rw [List.mem_singleton.1 he] at hc
      cases hc
    · rintro ⟨c, rfl, hc⟩
      exact absurd (by simpa [displayed] using hc) hd

example : (straceSyscall calling 9 readCfg 0 (one calling)).1 = .ok () ∧
    (sysEvent calling 9 readCalls 0 (one calling)).1 = .ok (some ⟨2, 2, none⟩) := by decide

/-- **C41** A call that has not ended when its process ends is displayed then, unless it is ignored or
was displayed at its start. -/
theorem C41_unfinished (K : Kern) (C : StraceCfg) (s t : DSt) (o : Nat) (h : processExited K C o s = (.ok (), t)) :
    ∃ g, t.log = s.log ++ g ∧ (shows o g ↔
      (s.heap o).ss.nextExit = true ∧ C.enter = false ∧ (s.heap o).ss.syscall ≠ none) := by
  unfold processExited at h
  have hiff : ((s.heap o).ss.nextExit && !C.enter && (s.heap o).ss.syscall.isSome) = true ↔
      (s.heap o).ss.nextExit = true ∧ C.enter = false ∧ (s.heap o).ss.syscall ≠ none := by
    cases (s.heap o).ss.nextExit <;> cases C.enter <;> cases (s.heap o).ss.syscall <;> simp
  rw [← hiff]
  split at h
  · rename_i hc
    refine ⟨[⟨.display o (s.heap o).pid, K s.log (.display o (s.heap o).pid), s.dict⟩],
      by rw [eventDisplay_ok h]; rfl, fun _ => hc, fun _ => ?_⟩
    exact ⟨_, List.mem_cons_self, _, rfl⟩
  · rename_i hc
    injection h with _ h
    refine ⟨[], by rw [h, List.append_nil], ?_, fun h => absurd h hc⟩
    rintro ⟨e, he, _⟩
    cases he

example : (processExited calling ⟨readCalls, false⟩ 0 (sysEvent calling 9 readCalls 0 (one calling)).2).1 = .ok () := by decide

/-- Small tables. -/
def smallTables : SysTables where
  names := ["read".toList, "open".toList, "socket".toList]
  prototypes := [("read".toList, ["fd".toList]), ("open".toList, ["filename".toList, "flags".toList])]
  filenameArguments := ["filename".toList]
  socketNames := ["socket".toList]

example := C41_shown smallTables (· == ' ') ⟨some "read, ".toList, true, true⟩ ["read".toList, "open".toList, "socket".toList] (by decide) none "open".toList

example := C41_reported calling smallTables (· == ' ') ⟨some "read, ".toList, true, true⟩ ["read".toList, "open".toList, "socket".toList] (by decide) none
  (fun _ => "read".toList) 9 (prepareProcess calling 0 (one calling)).2 _ 0 (by decide) (by decide) _ (Prod.ext rfl rfl)

example : onlyFilter smallTables (· == ' ') ⟨some "read, ".toList, true, true⟩ =
    some ["read".toList, "open".toList, "socket".toList] := by decide

example : ((prepareProcess calling 0 (one calling)).2.heap 0).ss.hasCallback = true ∧
    ((prepareProcess calling 0 (one calling)).2.heap 0).ss.nextExit = false := by decide

/-! ### C42 -/

/-- **C42** is false: the last name of the list is never looked at. -/
theorem C42_refuted : ∃ (T : SysTables) (text name : Str) (items only : List Str),
    Pieces ',' text items ∧ Named (· == ' ') items name ∧
    name ∉ T.names ∧ onlyFilter T (· == ' ') ⟨some text, false, false⟩ = some only :=
  ⟨smallTables, "oops".toList, "oops".toList, ["oops".toList], ["oops".toList], pieces_iff.2 (by decide),
    ⟨by decide, "oops".toList, by decide, stripped_iff.2 (by decide)⟩, by decide, by decide⟩

/-- **C42** for an unknown name that a further new name follows: strace exits with an error. -/
theorem C42_error_partial (T : SysTables) (space : Char → Bool) (text : Str) (file socket : Bool)
    (before after : List Str) (hpieces : Pieces ',' text (before ++ after)) (bad : Str) (hbad : Named space before bad)
    (hunknown : bad ∉ T.names) (next : Str) (hnext : Named space after next) (hnew : ¬ Named space before next) :
    onlyFilter T space ⟨some text, file, socket⟩ = none := by
  have hsplit := pieces_iff.1 hpieces
  have hne : text ≠ [] := by
    intro h
    rw [h] at hsplit
    have hsplit : [[]] = before ++ after := hsplit
    obtain ⟨h0, item, hi, _⟩ := hnext
    obtain ⟨h0', item', hi', _⟩ := hbad
    have h1 := List.length_pos_of_mem hi
    have h2 := List.length_pos_of_mem hi'
    have := congrArg List.length hsplit
    rw [List.length_append] at this
    simp only [List.length_cons, List.length_nil] at this
    omega
  unfold onlyFilter
  have hif : text.isEmpty = false := by cases text with
    | nil => exact absurd rfl hne
    | cons c cs => rfl
  show Option.map _ (if text.isEmpty = true then some [] else onlyLoop T.names space (splitOn ',' text) []) = none
  rw [hif, if_neg (by decide), hsplit, onlyLoop_append]
  cases hb : onlyLoop T.names space before [] with
  | none => rfl
  | some r =>
    have hm := onlyLoop_mem T.names space before [] r hb
    show Option.map _ (onlyLoop T.names space after r) = none
    rw [onlyLoop_refuses T.names space bad next hunknown after r ((hm bad).2 (Or.inr hbad)) ?_ hnext]
    · rfl
    · intro h
      rcases (hm next).1 h with h | h
      · cases h
      · exact hnew h

example : Named (· == ' ') ["oops".toList, "read".toList] "oops".toList ∧ "oops".toList ∉ smallTables.names ∧
    Named (· == ' ') [" open".toList] "open".toList ∧ ¬ Named (· == ' ') ["oops".toList, "read".toList] "open".toList ∧
    Pieces ',' "oops,read, open".toList (["oops".toList, "read".toList] ++ [" open".toList]) := by
  refine ⟨⟨by decide, "oops".toList, by decide, stripped_iff.2 (by decide)⟩, by decide,
    ⟨by decide, " open".toList, by decide, stripped_iff.2 (by decide)⟩, ?_, pieces_iff.2 (by decide)⟩
  rintro ⟨_, item, hi, h⟩
  rw [stripped_iff] at h
  revert item
  decide

/-- **C42** No error for known names. -/
theorem C42_known (T : SysTables) (space : Char → Bool) (text : Str) (file socket : Bool)
    (items : List Str) (hp : Pieces ',' text items) (h : ∀ n, Named space items n → n ∈ T.names) :
    ∃ only, onlyFilter T space ⟨some text, file, socket⟩ = some only := by
  unfold onlyFilter
  rw [← pieces_iff.1 hp] at h
  obtain ⟨r, hr⟩ := onlyLoop_accepts T.names space (splitOn ',' text) [] (by intro n h; cases h) h
  show ∃ only, Option.map _ (if text.isEmpty = true then some [] else onlyLoop T.names space (splitOn ',' text) []) = some only
  rw [hr]
  cases text.isEmpty with
  | true => exact ⟨_, rfl⟩
  | false => exact ⟨_, rfl⟩

example : Pieces ',' "read, open".toList ["read".toList, " open".toList] ∧
    ∀ n, Named (· == ' ') ["read".toList, " open".toList] n → n ∈ smallTables.names := by
  refine ⟨pieces_iff.2 (by decide), ?_⟩
  rintro n ⟨_, item, hi, h⟩
  rw [stripped_iff] at h
  subst h
  revert item
  decide

/-- Where the loop refuses. -/
theorem onlyLoop_none (names : List Str) (space : Char → Bool) : ∀ (items only : List Str), onlyLoop names space items only = none →
    ∃ before after bad next, items = before ++ after ∧ (bad ∈ only ∨ Named space before bad) ∧ bad ∉ names ∧ Named space after next ∧
      next ∉ only ∧ ¬ Named space before next := by
  intro items
  induction items with
  | nil => intro only h; cases h
  | cons x xs ih =>
    intro only h
    rw [onlyLoop] at h
    have hcons : ∀ before n, Named space (x :: before) n ↔ (n ≠ [] ∧ n = strip space x) ∨ Named space before n := by
      intro before n
      constructor
      · rintro ⟨h0, item, hi, hs⟩
        rcases List.mem_cons.1 hi with rfl | hi
        · exact Or.inl ⟨h0, (stripped_iff.1 hs).symm ▸ rfl⟩
        · exact Or.inr ⟨h0, item, hi, hs⟩
      · rintro (⟨h0, h1⟩ | ⟨h0, item, hi, hs⟩)
        · exact ⟨h0, x, List.mem_cons_self .., stripped_iff.2 h1.symm⟩
        · exact ⟨h0, item, List.mem_cons_of_mem _ hi, hs⟩
    by_cases h1 : ((strip space x).isEmpty || only.contains (strip space x)) = true
    · rw [if_pos h1] at h
      obtain ⟨before, after, bad, next, e1, e2, e3, e4, e5, e6⟩ := ih only h
      refine ⟨x :: before, after, bad, next, by rw [e1]; rfl, ?_, e3, e4, e5, fun hn => ?_⟩
      · rcases e2 with e2 | e2
        · exact Or.inl e2
        · exact Or.inr ((hcons _ _).2 (Or.inr e2))
      · rcases (hcons _ _).1 hn with ⟨h0, hx⟩ | hn
        · rw [Bool.or_eq_true] at h1
          rcases h1 with h1 | h1
          · exact h0 (by rw [hx]; exact List.isEmpty_iff.1 h1)
          · exact e5 (by rw [hx]; simpa using h1)
        · exact e6 hn
    · rw [if_neg h1] at h
      have h1' : strip space x ≠ [] ∧ strip space x ∉ only := by
        simp only [Bool.or_eq_true, not_or] at h1
        exact ⟨fun hx => h1.1 (by rw [hx]; rfl), fun hx => h1.2 (by simpa using hx)⟩
      by_cases h2 : (only.all fun name => names.contains name) = true
      · rw [if_pos h2] at h
        obtain ⟨before, after, bad, next, e1, e2, e3, e4, e5, e6⟩ := ih _ h
        rw [List.mem_append] at e5
        refine ⟨x :: before, after, bad, next, by rw [e1]; rfl, ?_, e3, e4, fun hh => e5 (Or.inl hh), fun hn => ?_⟩
        · rcases e2 with e2 | e2
          · rcases List.mem_append.1 e2 with e2 | e2
            · exact Or.inl e2
            · rw [List.mem_singleton] at e2
              exact Or.inr ((hcons _ _).2 (Or.inl ⟨by rw [e2]; exact h1'.1, e2⟩))
          · exact Or.inr ((hcons _ _).2 (Or.inr e2))
        · rcases (hcons _ _).1 hn with ⟨_, hx⟩ | hn
          · exact e5 (Or.inr (by rw [hx]; exact List.mem_singleton.2 rfl))
          · exact e6 hn
      · simp only [List.all_eq_true, not_forall] at h2
        obtain ⟨bad, hb, hn⟩ := h2
        refine ⟨[], x :: xs, bad, strip space x, rfl, Or.inl hb, fun hh => hn (by simpa using hh), (hcons _ _).2 (Or.inl ⟨h1'.1, rfl⟩), h1'.2, ?_⟩
        rintro ⟨_, item, hi, _⟩
        cases hi

/-- **C42** Exactly when an error is raised: an unknown name stands before another new name. -/
theorem C42_exact (T : SysTables) (space : Char → Bool) (text : Str) (file socket : Bool) :
    onlyFilter T space ⟨some text, file, socket⟩ = none ↔
      ∃ before after bad next, Pieces ',' text (before ++ after) ∧ Named space before bad ∧ bad ∉ T.names ∧ Named space after next ∧
        ¬ Named space before next := by
  constructor
  · intro h
    unfold onlyFilter at h
    have h' : Option.map _ (if text.isEmpty = true then some [] else onlyLoop T.names space (splitOn ',' text) []) = none := h
    rw [Option.map_eq_none_iff] at h'
    by_cases he : text.isEmpty = true
    · rw [if_pos he] at h'; cases h'
    · rw [if_neg he] at h'
      obtain ⟨before, after, bad, next, e1, e2, e3, e4, _, e6⟩ := onlyLoop_none _ _ _ _ h'
      refine ⟨before, after, bad, next, pieces_iff.2 e1, ?_, e3, e4, e6⟩
      rcases e2 with e2 | e2
      · cases e2
      · exact e2
  · rintro ⟨before, after, bad, next, h1, h2, h3, h4, h5⟩
    exact C42_error_partial T space text file socket before after h1 bad h2 h3 next h4 h5

end PT
