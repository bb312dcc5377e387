import Verif.Lemmas.Debugger8
import Mathlib.Data.List.Nodup

/-! Properties C25 to C37: process registry, waiting, ending processes, trace options. -/

namespace PT
open Spec

/-! Kernels used by the examples. -/

/-- A calm kernel: every request succeeds, every waited process stops with `SIGSTOP`, new processes get
pid 8. -/
def calm : Kern := fun _ c =>
  match c with
  | .waitpid (some p) _ _ => .ok p 0x137f
  | .waitpid none _ _ => .ok 7 0x137f
  | .geteventmsg _ _ => .ok 8 0
  | _ => .ok 0 0

/-- As `calm`, but `setoptions` fails with `ESRCH`. -/
def noOptions : Kern := fun log c =>
  match c with
  | .setoptions _ _ _ => .err 3
  | c => calm log c

/-- As `calm`, but `detach` fails with `ESRCH`. -/
def noDetach : Kern := fun log c =>
  match c with
  | .detach _ _ => .err 3
  | c => calm log c

/-- As `calm`, but a process that was continued with `SIGKILL` is then reported as killed, and `detach`
fails. -/
def mortal : Kern := fun log c =>
  match c with
  | .detach _ _ => .err 3
  | .waitpid (some p) _ _ =>
    if log.any fun e => isKill e.call then .ok p 9 else .ok p 0x137f
  | c => calm log c

/-- Process 7 forks; the first stop of its child is `SIGUSR1`. -/
def forking : Kern := fun log c =>
  match c with
  | .waitpid (some 7) _ _ => if log.any fun e => decide (e.call = .setoptions 0 7 1) then .ok 7 0x1057f else .ok 7 0x137f
  | .waitpid (some 8) _ _ => .ok 8 0x0a7f
  | c => calm log c

theorem realPids_calm : RealPids calm := by intro log o pid st h; injection h with h _; cases h
theorem realPids_forking : RealPids forking := by intro log o pid st h; injection h with h _; cases h
theorem realPids_mortal : RealPids mortal := by intro log o pid st h; injection h with h _; cases h

/-! ### C25 -/

theorem consistent_of_regInv {s : DSt} (h : RegInv s) : Consistent s := by
  have hinj : ∀ a ∈ s.list, ∀ b ∈ s.list, (s.heap a).pid = (s.heap b).pid → a = b := by
    intro a ha b hb hab
    have h1 := h.get ha
    rw [hab, h.get hb] at h1
    injection h1 with h1
    exact h1.symm
  have hlen : s.dict.length = s.list.length := by
    have hperm : (s.dict.map Prod.snd).Perm s.list := by
      refine (List.perm_ext_iff_of_nodup ?_ h.nodup).2 ?_
      · refine List.Nodup.of_map (fun o => (s.heap o).pid) ?_
        have : (s.dict.map Prod.snd).map (fun o => (s.heap o).pid) = s.dict.map Prod.fst := by
          rw [List.map_map]
          refine List.map_congr_left ?_
          intro e he
          exact ((h.agree e.1 e.2).1 he).2
        rw [this]
        exact h.keys
      · intro o
        constructor
        · intro ho
          obtain ⟨e, he, rfl⟩ := List.mem_map.1 ho
          exact ((h.agree e.1 e.2).1 he).1
        · intro ho
          exact List.mem_map.2 ⟨((s.heap o).pid, o), (h.agree _ _).2 ⟨ho, rfl⟩, rfl⟩
    rw [← hperm.length_eq, List.length_map]
  refine ⟨?_, ?_, rfl, hlen⟩
  · exact List.Nodup.map_on hinj h.nodup
  · intro pid o
    constructor
    · intro hg
      exact (h.agree pid o).1 (dictGet_some hg)
    · rintro ⟨ho, rfl⟩
      exact h.get ho

/-- **C25** for every sequence of calls in which the user does not call `deleteProcess` on an attached
process nor `attach` on an unregistered one (and names no pid 0). -/
theorem C25_history_partial (K : Kern) (s : DSt) (h : Reach K s) : Consistent s :=
  consistent_of_regInv (reach_reg h)

example : Reach calm (runOps calm 5 [.addProcess 7 true none false, .addProcess 9 false none false, .detach 1] newDebugger) :=
  .call (.call (.call .new 5 (.addProcess 7 true none false) (by show (7 : Nat) ≠ 0; decide)) 5 (.addProcess 9 false none false) (by show (9 : Nat) ≠ 0; decide))
    5 (.detach 1) trivial

example : iterate (runOps calm 5 [.addProcess 7 true none false, .addProcess 9 false none false] newDebugger) = [0, 1] := by
  decide

/-- **C25** is false for all histories: `deleteProcess` (public) on an attached process, then adding the
pid again, then detaching the first object removes the second one from the dictionary only. -/
theorem C25_refuted : ∃ (K : Kern) (fuel : Nat) (ops : List Op), ¬ Consistent (runOps K fuel ops newDebugger) := by
  refine ⟨calm, 5, [.addProcess 7 true none false, .deleteProcess 0, .addProcess 7 true none false, .detach 0], ?_⟩
  intro h
  have := h.length.2
  revert this
  decide

/-! ### C26 -/

/-- **C26** -/
theorem C26_duplicate (K : Kern) (fuel pid o : Nat) (isAttached : Bool) (parent : Option Nat) (isThread : Bool)
    (s : DSt) (h : getitem s pid = some o) :
    addProcess K (waitEventPid K fuel) pid isAttached parent isThread s = (.error .key, s) := by
  unfold addProcess
  rw [if_pos]
  exact (dictHas_iff).2 ⟨o, dictGet_some h⟩

example : getitem (runOps calm 5 [.addProcess 7 true none false] newDebugger) 7 = some 0 := by decide

/-! ### C27 -/

/-- **C27** is false: the options cannot be set, `addProcess` raises and the pid stays registered. -/
theorem C27_refuted : ∃ (K : Kern) (t : DSt), RealPids K ∧
    addProcess K (waitEventPid K 5) 7 true none false newDebugger = (.error (.ptrace (some 3)), t) ∧
    getitem t 7 = some 0 := by
  refine ⟨noOptions, (addProcess noOptions (waitEventPid noOptions 5) 7 true none false newDebugger).2, ?_, rfl, by decide⟩
  intro log o pid st h
  injection h with h _
  cases h

/-- **C27**, exactly: a pid that was not registered is still not registered after `addProcess` raised if
and only if the attach request failed or the exception says that the new process ended. -/
theorem C27_exact_partial (K : Kern) (hz : RealPids K) (s : DSt) (hs : Reach K s) (fuel pid : Nat) (hp : pid ≠ 0)
    (isAttached : Bool) (parent : Option Nat) (isThread : Bool) (hd : getitem s pid = none) (e : Exc) (t : DSt)
    (h : addProcess K (waitEventPid K fuel) pid isAttached parent isThread s = (.error e, t)) :
    getitem t pid = none ↔
      (isAttached = false ∧ ∀ v st, K s.log (.attach s.next pid) ≠ .ok v st) ∨
      ∃ a b, e = .event (.exit s.next a b) := by
  exact (addProcess_out (waitEventPid_out hz fuel · true) pid hp isAttached parent isThread s (reach_reg hs) _ t h).2
    (dictHas_false.2 (dictGet_none.1 hd))

/-- The attach request fails with `EPERM`. -/
def noAttach : Kern := fun log c =>
  match c with
  | .attach _ _ => .err 1
  | c => calm log c

example : RealPids noAttach ∧ Reach noAttach newDebugger ∧ getitem newDebugger 7 = none ∧
    (addProcess noAttach (waitEventPid noAttach 5) 7 false none false newDebugger).1 = .error (.ptrace (some 1)) :=
  ⟨by (intro log o pid st h; injection h with h _; cases h), .new, rfl, rfl⟩

/-! ### C28 -/

/-- **C28**, who is killed: `quit` makes its requests for one process after the other, in reverse order of
registration, and sends signals only to processes created by the debugger. -/
theorem C28_order (K : Kern) (s : DSt) (hs : Reach K s) (fuel : Nat) :
    ∃ g, (quit K fuel s).2.log = s.log ++ g ∧ Handled s (iterate s).reverse g :=
  quitLoop_handled fuel s.list.reverse s fun o ho => (reach_reg hs).alloc o (List.mem_reverse.1 ho)

/-- **C28**, `terminate` in any state: no request for another process and no signal for a process that was
attached from outside. -/
theorem C28_spare (K : Kern) (s : DSt) (fuel o : Nat) (wait : Bool) :
    ∃ g, (terminate K fuel o wait s).2.log = s.log ++ g ∧ (∀ e ∈ g, ∀ q, target e.call = some q → q = o) ∧
      ∀ e ∈ g, sends e.call ≠ none → (s.heap o).wasAttached = true :=
  terminate_log fuel o wait s

/-- **C28**, registry after `quit`: empty if every registered process was attached. -/
theorem C28_quit_partial (K : Kern) (hz : RealPids K) (s : DSt) (hs : Reach K s) (fuel : Nat) (t : DSt)
    (hatt : ∀ o ∈ iterate s, (s.heap o).isAttached = true) (h : quit K fuel s = (.ok (), t)) :
    iterate t = [] ∧ length t = 0 ∧ ∀ pid, getitem t pid = none := by
  have hr := reach_reg hs
  obtain ⟨hrt, hl⟩ := quitLoop_empty hz fuel s.list.reverse s t hr (reach_pid hz hs).obj
    (List.nodup_reverse.2 hr.nodup) (fun o => List.mem_reverse) hatt h
  refine ⟨hl, ?_, ?_⟩
  · show t.list.length = 0
    rw [hl]; rfl
  · intro pid
    refine dictGet_none.2 ?_
    intro o ho
    have := ((hrt.agree pid o).1 ho).1
    rw [hl] at this
    cases this

/-- **C28**, order: objects are numbered when they are created and iterated in this order, so the reverse
of the iteration is the reverse order of registration. -/
theorem C28_registration_order (K : Kern) (ops : List Op) (t : DSt) (h : Trace K newDebugger ops t) :
    (iterate t).Pairwise (· < ·) ∧ ∀ o ∈ iterate t, o < t.next := by
  refine (trace_steps h).invariant (I := fun t => t.list.Pairwise (· < ·) ∧ ∀ o ∈ t.list, o < t.next) ?_ ?_
  · intro s a t _ hs hi
    have hadd : (s.list ++ [s.next]).Pairwise (· < ·) ∧ ∀ o ∈ s.list ++ [s.next], o < s.next + 1 := by
      refine ⟨List.pairwise_append.2 ⟨hi.1, List.pairwise_singleton _ _, ?_⟩, ?_⟩
      · intro a ha b hb
        rw [List.mem_singleton.1 hb]
        exact hi.2 a ha
      · intro o ho
        rcases List.mem_append.1 ho with ho | ho
        · exact Nat.lt_succ_of_lt (hi.2 o ho)
        · rw [List.mem_singleton.1 ho]; exact Nat.lt_succ_self _
    have hdel : ∀ o, (s.list.erase o).Pairwise (· < ·) ∧ ∀ q ∈ s.list.erase o, q < s.next :=
      fun o => ⟨hi.1.sublist List.erase_sublist, fun q hq => hi.2 q (List.mem_of_mem_erase hq)⟩
    cases hs with
    | detachRun o _ _ _ => exact hdel o
    | detachDead o _ _ => exact hdel o
    | delete o => exact hdel o
    | addAttached pid parent isThread _ => exact hadd
    | addAttach pid parent isThread _ _ => exact hadd
    | _ => exact hi
  · exact ⟨List.Pairwise.nil, by intro o ho; cases ho⟩

/-- **C28**, who counts as created: the flag consulted by `terminate` is the one given to `addProcess`, and
no later call changes it; a process is attached by a request exactly if the flag is false. -/
theorem C28_created (K : Kern) (hz : RealPids K) (s : DSt) (hs : Reach K s) (fuel pid : Nat) (hp : pid ≠ 0)
    (isAttached : Bool) (parent : Option Nat) (isThread : Bool) (q : Nat) (t : DSt)
    (h : addProcess K (waitEventPid K fuel) pid isAttached parent isThread s = (.ok q, t))
    (ops : List Op) (u : DSt) (hu : Trace K t ops u) :
    (u.heap q).wasAttached = isAttached ∧ (u.heap q).pid = pid ∧ (u.heap q).isThread = isThread := by
  have hout : AddOK s t pid isAttached parent isThread q :=
    addProcess_out (waitEventPid_out hz fuel · true) pid hp isAttached parent isThread s (reach_reg hs) _ t h
  have hold := (trace_steps hu).old
  rw [hold.was q hout.lt, hold.pid q hout.lt, hold.thread q hout.lt, hout.heap]
  exact ⟨rfl, rfl, rfl⟩

/-- Two processes, one created by the debugger and one attached. -/
def two (K : Kern) : DSt := runOps K 5 [.addProcess 7 true none false, .addProcess 9 false none false] newDebugger

theorem reach_two (K : Kern) : Reach K (two K) :=
  .call (.call .new 5 (.addProcess 7 true none false) (by show (7 : Nat) ≠ 0; decide)) 5
    (.addProcess 9 false none false) (by show (9 : Nat) ≠ 0; decide)

/-- As `calm`, but a process that was continued with `SIGKILL` is then reported as killed. -/
def killable : Kern := fun log c =>
  match c with
  | .waitpid (some p) _ _ =>
    if log.any fun e => isKill e.call then .ok p 9 else .ok p 0x137f
  | c => calm log c

theorem realPids_killable : RealPids killable := by intro log o pid st h; injection h with h _; cases h

example := C28_order killable (two killable) (reach_two killable) 5

theorem pair_eq {α β : Type} {p : α × β} {a : α} (h : p.1 = a) : p = (a, p.2) := by subst h; rfl

theorem killable_quit : (quit killable 5 (two killable)).1 = .ok () := by decide +kernel

example := C28_quit_partial killable realPids_killable (two killable) (reach_two killable) 5 _ (by decide +kernel) (pair_eq killable_quit)

theorem trace_two (K : Kern) : Trace K newDebugger [.addProcess 7 true none false, .addProcess 9 false none false] (two K) :=
  .snoc (.snoc .nil 5 (.addProcess 7 true none false)) 5 (.addProcess 9 false none false)

example := C28_registration_order calm _ _ (trace_two calm)

example : (quit killable 5 (two killable)).1 = .ok () ∧ iterate (two killable) = [0, 1] ∧
    (∀ o ∈ iterate (two killable), ((two killable).heap o).isAttached = true) ∧
    ((two killable).heap 0).wasAttached = true ∧ ((two killable).heap 1).wasAttached = false := by
  decide +kernel

/-- **C28** is false for the registry: after a `detach` that failed, `quit` returns and leaves the process
registered. -/
theorem C28_refuted : ∃ (K : Kern) (s t : DSt), RealPids K ∧ Reach K s ∧ quit K 5 s = (.ok (), t) ∧ iterate t ≠ [] := by
  refine ⟨noDetach, runOps noDetach 5 [.addProcess 7 false none false, .detach 0] newDebugger,
    (quit noDetach 5 (runOps noDetach 5 [.addProcess 7 false none false, .detach 0] newDebugger)).2, ?_,
    .call (.call .new 5 (.addProcess 7 false none false) (by show (7 : Nat) ≠ 0; decide)) 5 (.detach 0) trivial,
    ?_, ?_⟩
  · intro log o pid st h; injection h with h _; cases h
  · have : (quit noDetach 5 (runOps noDetach 5 [.addProcess 7 false none false, .detach 0] newDebugger)).1 = .ok () := by
      decide +kernel
    rw [← this]
  · decide +kernel

/-! ### C29 -/

/-- **C29**, number of requests: at most one per attachment, so at most one if the user never calls `attach`
again on the object. -/
theorem C29_once_partial (K : Kern) (ops : List Op) (t : DSt) (h : Trace K newDebugger ops t) (o : Nat) :
    detachCount o t.log ≤ 1 + ops.count (.attach o) :=
  Nat.le_trans (Nat.le_add_right _ _) (detachOnce h).once

-- attached once, detached twice
example := C29_once_partial calm _ _ (.snoc (.snoc (.snoc (trace_two calm) 5 (.detach 1)) 5 (.attach 1)) 5 (.detach 1)) 1

/-- **C29**, dead processes: once a process is known to have ended, no history makes another request. -/
theorem C29_ended (K : Kern) (s t : DSt) (ops : List Op) (h : Trace K s ops t) (o : Nat) (ho : o < s.next)
    (hr : (s.heap o).running = false) : detachCount o t.log = detachCount o s.log :=
  ended_steps (trace_steps h) ho hr

example := C29_ended mortal (runOps mortal 5 [.addProcess 7 true none false, .terminate 0 true] newDebugger) _ _
  (.snoc (.snoc .nil 5 (.detach 0)) 5 .quit) 0 (by decide) (by decide)

/-- **C29** is false if the user attaches again. -/
theorem C29_refuted : ∃ (K : Kern) (ops : List Op) (t : DSt) (o : Nat), Trace K newDebugger ops t ∧
    detachCount o t.log = 2 :=
  ⟨calm, [.addProcess 7 false none false, .detach 0, .attach 0, .detach 0], _, 0,
    .snoc (.snoc (.snoc (.snoc .nil 5 _) 5 _) 5 _) 5 _, by decide⟩

example : detachCount 0 (runOps calm 5 [.addProcess 7 false none false, .detach 0, .detach 0, .quit] newDebugger).log = 1 := by
  decide

example : ((runOps mortal 5 [.addProcess 7 true none false, .terminate 0 true] newDebugger).heap 0).running = false ∧
    0 < (runOps mortal 5 [.addProcess 7 true none false, .terminate 0 true] newDebugger).next := by
  decide

/-! ### C30 -/

/-- **C30**, all histories: no request carries `SIGTRAP`. -/
theorem C30_history (K : Kern) (ops : List Op) (t : DSt) (h : Trace K newDebugger ops t) (e : Entry) (he : e ∈ t.log)
    (o pid signum : Nat) (hc : e.call = .cont o pid signum ∨ e.call = .syscall o pid signum) : signum ≠ 5 :=
  (trace_logInv h).signals e he o pid signum hc

example := C30_history calm _ _ (.snoc (.snoc (trace_two calm) 5 (.cont 0 5)) 5 (.syscall 1 12)) _ (List.getLast_mem (by decide)) 1 9 12 (by decide)

/-- **C30**, one request: every other signal is passed unchanged, to the same process. -/
theorem C30_passed (K : Kern) (s : DSt) (o signum : Nat) :
    (procCont K o signum s).2.log = s.log ++ [⟨.cont o (s.heap o).pid (if signum = 5 then 0 else signum),
      K s.log (.cont o (s.heap o).pid (if signum = 5 then 0 else signum)), s.dict⟩] ∧
    (procSyscall K o signum s).2.log = s.log ++ [⟨.syscall o (s.heap o).pid (if signum = 5 then 0 else signum),
      K s.log (.syscall o (s.heap o).pid (if signum = 5 then 0 else signum)), s.dict⟩] := by
  have hf : filterSignal signum = if signum = 5 then 0 else signum := rfl
  rw [← hf]
  constructor
  · unfold procCont Py.bind
    rw [ptraceCall_run]
    cases ptraceRes (K s.log (.cont o (s.heap o).pid (filterSignal signum))) <;> rfl
  · unfold procSyscall Py.bind
    rw [ptraceCall_run]
    cases ptraceRes (K s.log (.syscall o (s.heap o).pid (filterSignal signum))) <;> rfl

example : (runOps calm 5 [.addProcess 7 true none false, .cont 0 5, .cont 0 10, .syscall 0 5, .syscall 0 12] newDebugger).log.map
    (fun e => sends e.call) = [none, none, some 0, some 10, some 0, some 12] := by decide

/-! ### C31 -/

/-- **C31**, which pid: every wait for a pid names a process registered at that moment, with `__WALL`
exactly if it is a thread. -/
theorem C31_registered (K : Kern) (ops : List Op) (t : DSt) (h : Trace K newDebugger ops t) (e : Entry)
    (he : e ∈ t.log) (pid : Nat) (nohang wall : Bool) (hc : e.call = .waitpid (some pid) nohang wall) :
    ∃ o, (pid, o) ∈ e.dict ∧ wall = (t.heap o).isThread := by
  obtain ⟨o, _, h1, h2⟩ := (trace_logInv h).waits e he pid nohang wall hc
  exact ⟨o, h1, h2⟩

example := C31_registered calm _ _ (trace_two calm) _ (List.head_mem (by decide)) 7 false false (by decide)

/-- **C31**, never any child: if pid 0 is never used there is no wait for any child. -/
theorem C31_never_any (K : Kern) (hz : RealPids K) (s : DSt) (hs : Reach K s) (e : Entry) (he : e ∈ s.log)
    (nohang wall : Bool) : e.call ≠ .waitpid none nohang wall :=
  reach_noAny hz hs e he nohang wall

example := C31_never_any calm realPids_calm (two calm) (reach_two calm) _ (List.head_mem (by decide)) false true

/-- The object an event of `waitEventPid` is about. -/
theorem wout_eventFor {K : Kern} {wanted : Nat} {blocking : Bool} {s t : DSt} {ev : Event}
    (h : WOut K wanted blocking s (.ok (some ev)) t) : ∃ o, dictGet s.dict wanted = some o ∧ EventFor t o ev := by
  cases ev with
  | exit o a b => exact ⟨o, h.1, rfl⟩
  | signal o m => exact ⟨o, h.1, rfl⟩
  | execution o => exact ⟨o, h.1, rfl⟩
  | newProcess q =>
    obtain ⟨o, st, event, pid, mst, h1, _, _, _, _, hadd⟩ := h
    exact ⟨o, h1, by show (t.heap q).parent = some o; rw [hadd.heap]; rfl⟩

/-- **C31**, events: an event is about a registered process, the wanted one if there is one. -/
theorem C31_events (K : Kern) (hz : RealPids K) (s : DSt) (hs : Reach K s) (fuel : Nat) (wanted : Option Nat)
    (hw : wanted ≠ some 0) (blocking : Bool) (ev : Event) (t : DSt)
    (h : waitProcessEvent K fuel wanted blocking s = (.ok (some ev), t)) :
    ∃ o ∈ iterate s, EventFor t o ev ∧ ∀ p, wanted = some p → getitem s p = some o := by
  have hr := reach_reg hs
  obtain ⟨pid, b, u, hp, hpw, hu, hru, hwait⟩ := waitProcessEvent_from hz fuel wanted hw blocking s hr (reach_pid hz hs) ev t h
  have hout := waitEventPid_out hz fuel pid b u hp hru
  rw [hwait] at hout
  obtain ⟨o, ho, hev⟩ := wout_eventFor hout
  rw [hu.dict] at ho
  exact ⟨o, ((hr.agree pid o).1 (dictGet_some ho)).1, hev, fun p hp' => by rw [← hpw p hp']; exact ho⟩

example : (waitProcessEvent calm 5 none true (two calm)).1 = .ok (some (.signal 0 19)) := by decide

/-! ### C32 -/

/-- **C32**, filter: only a wanted signal is returned, of the wanted process. -/
theorem C32_filter (K : Kern) (hz : RealPids K) (s : DSt) (hs : Reach K s) (fuel : Nat) (signals : List Nat)
    (wanted : Option Nat) (hw : wanted ≠ some 0) (ev : Event) (t : DSt)
    (h : waitSignals K fuel signals wanted s = (.ok ev, t)) :
    ∃ o m, ev = .signal o m ∧ (signals = [] ∨ m ∈ signals) ∧ o ∈ iterate s ∧
      ∀ p, wanted = some p → getitem s p = some o := by
  unfold waitSignals Py.bind at h
  rcases hx : waitProcessEvent K fuel wanted true s with ⟨r, u⟩
  rw [hx] at h
  cases r with
  | error e => cases h
  | ok e =>
    cases e with
    | none => cases h
    | some e =>
      obtain ⟨o, ho, hev, hp⟩ := C31_events K hz s hs fuel wanted hw true e u hx
      cases e with
      | exit q a b => cases h
      | execution q => cases h
      | newProcess q => cases h
      | signal q m =>
        have hq : q = o := hev
        subst hq
        dsimp only [filterEvent] at h
        by_cases hc : (signals.contains m || signals.isEmpty) = true
        · rw [if_pos hc] at h
          injection h with h1 _
          injection h1 with h1
          refine ⟨q, m, h1.symm, ?_, ho, hp⟩
          rcases Bool.or_eq_true_iff.1 hc with h2 | h2
          · exact Or.inr (List.contains_iff_mem.1 h2)
          · exact Or.inl (List.isEmpty_iff.1 h2)
        · rw [if_neg hc] at h; cases h

example := C32_filter calm realPids_calm (two calm) (reach_two calm) 5 [19] (some 9) (by decide) (.signal 1 19) _ (Prod.ext (by decide) rfl)

/-- Is the event a wanted signal? -/
def Wanted (signals : List Nat) (ev : Event) : Prop := ∃ o m, ev = .signal o m ∧ (signals = [] ∨ m ∈ signals)

/-- **C32**, the others: any other event reaches the caller as an exception carrying the same event. -/
theorem C32_raised (K : Kern) (s : DSt) (fuel : Nat) (signals : List Nat) (wanted : Option Nat) (ev : Event) (t : DSt)
    (h : waitProcessEvent K fuel wanted true s = (.ok (some ev), t)) :
    (Wanted signals ev → waitSignals K fuel signals wanted s = (.ok ev, t)) ∧
    (¬ Wanted signals ev → waitSignals K fuel signals wanted s = (.error (.event ev), t)) := by
  unfold waitSignals Py.bind
  rw [h]
  cases ev with
  | exit q a b => exact ⟨by (rintro ⟨o, m, h, _⟩; cases h), fun _ => rfl⟩
  | execution q => exact ⟨by (rintro ⟨o, m, h, _⟩; cases h), fun _ => rfl⟩
  | newProcess q => exact ⟨by (rintro ⟨o, m, h, _⟩; cases h), fun _ => rfl⟩
  | signal q n =>
    have hiff : (signals.contains n || signals.isEmpty) = true ↔ Wanted signals (.signal q n) := by
      rw [Bool.or_eq_true_iff, List.contains_iff_mem, List.isEmpty_iff]
      constructor
      · intro hh; exact ⟨q, n, rfl, hh.symm⟩
      · rintro ⟨o, m, hm, hh⟩
        injection hm with _ hm
        subst hm
        exact hh.symm
    dsimp only [filterEvent]
    constructor
    · intro hwt
      rw [if_pos (hiff.2 hwt)]
      rfl
    · intro hwt
      rw [if_neg (fun hh => hwt (hiff.1 hh))]
      rfl

example : (waitSignals calm 5 [19] none (two calm)).1 = .ok (.signal 0 19) ∧
    (waitSignals calm 5 [11] none (two calm)).1 = .error (.event (.signal 0 19)) := by decide

/-- **C32**, surfacing: a status obtained for a registered process becomes exactly one event about it, unless
the process reports a new process; a blocking wait consumes exactly one status. -/
theorem C32_surfaced_partial (K : Kern) (s : DSt) (fuel pid o : Nat) (blocking : Bool) (st : Int) (hp : pid ≠ 0)
    (hreg : getitem s pid = some o)
    (hk : K s.log (.waitpid (some pid) (!blocking) (s.heap o).isThread) = .ok pid st) (t : DSt)
    (r : Except Exc (Option Event)) (h : waitProcessEvent K (fuel + 1) (some pid) blocking s = (r, t)) :
    (∀ c, Spec.waitMeaning st = .exited c → r = .ok (some (.exit o none (some c)))) ∧
    (∀ n, Spec.waitMeaning st = .killed n → r = .ok (some (.exit o (some n) none))) ∧
    (∀ n, Spec.waitMeaning st = .signal n → r = .ok (some (.signal o n))) ∧
    (Spec.waitMeaning st = .event 4 → r = .ok (some (.execution o))) ∧
    (∀ n, Spec.waitMeaning st = .event n → n ≠ 1 → n ≠ 2 → n ≠ 3 → n ≠ 4 → r = .error (.ptrace none)) ∧
    (Spec.waitMeaning st = .unknown → r = .error (.ptrace none)) ∧
    ((∀ n, Spec.waitMeaning st = .event n → n ≠ 1 ∧ n ≠ 2 ∧ n ≠ 3) →
      t.log = s.log ++ [⟨.waitpid (some pid) (!blocking) (s.heap o).isThread, .ok pid st, s.dict⟩]) := by
  have hget : dictGet s.dict pid = some o := hreg
  have hlog : (logCall K (waitCall s pid blocking o) s).log =
      s.log ++ [⟨.waitpid (some pid) (!blocking) (s.heap o).isThread, .ok pid st, s.dict⟩] := by
    show s.log ++ [⟨waitCall s pid blocking o, K s.log (waitCall s pid blocking o), s.dict⟩] = _
    have : K s.log (waitCall s pid blocking o) = .ok pid st := hk
    rw [this]; rfl
  have hrun : waitProcessEvent K (fuel + 1) (some pid) blocking s =
      Py.bind (processStatus K (waitEventPid K fuel) o st) (fun e => Py.pure (some e))
        (logCall K (waitCall s pid blocking o) s) := by
    show waitEventPid K (fuel + 1) pid blocking s = _
    have hraw : waitpidRaw K pid blocking s = (.ok (pid, st), logCall K (waitCall s pid blocking o) s) := by
      unfold waitpidRaw
      rw [if_pos hp, hget]
      show Py.bind (osCall K (waitCall s pid blocking o)) (checkPid pid blocking) s = _
      unfold Py.bind
      rw [osCall_run]
      have : K s.log (waitCall s pid blocking o) = .ok pid st := hk
      rw [this]
      show checkPid pid blocking (pid, st) _ = _
      unfold checkPid
      rw [if_neg (by simp)]
      rfl
    unfold waitEventPid
    rw [hraw]
    show waitReply K (waitEventPid K fuel) (waitEventPid K fuel pid blocking) blocking (pid, st) _ = _
    unfold waitReply
    have hd : dictGet (logCall K (waitCall s pid blocking o) s).dict pid = some o := hget
    rw [if_neg (by simp [hp]), hd]
  rw [hrun] at h
  have hlogs : ∀ q, (gone q (logCall K (waitCall s pid blocking o) s)).log = (logCall K (waitCall s pid blocking o) s).log :=
    fun q => gone_log q _
  generalize logCall K (waitCall s pid blocking o) s = s1 at *
  unfold processStatus at h
  rw [classify_kind] at h
  cases hcl : Spec.waitMeaning st with
  | exited c =>
    rw [hcl] at h
    have h2 : (Except.ok (some (.exit o none (some c))), gone o s1) = (r, t) := by
      rw [← h]; simp only [Py.bind, notRunning_run, Py.pure]
    injection h2 with h2 h3
    subst h2 h3
    refine ⟨by (intro c' hc'; injection hc' with hc'; rw [hc']), by (intro n hn; cases hn), by (intro n hn; cases hn),
      by (intro hn; cases hn), by (intro n hn; cases hn), by (intro hn; cases hn), fun _ => by rw [hlogs, hlog]⟩
  | killed c =>
    rw [hcl] at h
    have h2 : (Except.ok (some (.exit o (some c) none)), gone o s1) = (r, t) := by
      rw [← h]; simp only [Py.bind, notRunning_run, Py.pure]
    injection h2 with h2 h3
    subst h2 h3
    refine ⟨by (intro n hn; cases hn), by (intro c' hc'; injection hc' with hc'; rw [hc']), by (intro n hn; cases hn),
      by (intro hn; cases hn), by (intro n hn; cases hn), by (intro hn; cases hn), fun _ => by rw [hlogs, hlog]⟩
  | unknown =>
    rw [hcl] at h
    injection h with h2 h3
    subst h2 h3
    refine ⟨by (intro n hn; cases hn), by (intro n hn; cases hn), by (intro n hn; cases hn),
      by (intro hn; cases hn), by (intro n hn; cases hn), fun _ => rfl, fun _ => hlog⟩
  | signal m =>
    rw [hcl] at h
    injection h with h2 h3
    subst h2 h3
    refine ⟨by (intro n hn; cases hn), by (intro n hn; cases hn), by (intro c' hc'; injection hc' with hc'; rw [hc']),
      by (intro hn; cases hn), by (intro n hn; cases hn), by (intro hn; cases hn), fun _ => hlog⟩
  | event n =>
    rw [hcl] at h
    refine ⟨by (intro n hn; cases hn), by (intro n hn; cases hn), by (intro n hn; cases hn), ?_, ?_,
      by (intro hn; cases hn), ?_⟩
    · intro hn
      injection hn with hn
      subst hn
      injection h with h2 h3
      exact h2.symm
    · intro n' hn h1 h2 h3 h4
      injection hn with hn
      subst hn
      dsimp only at h
      unfold Py.bind ptraceEvent at h
      rw [if_neg (by rintro (hh | hh | hh); exacts [h1 hh, h2 hh, h3 hh]), if_neg (show ¬ n = PTRACE_EVENT_EXEC from h4)] at h
      injection h with h2 h3
      exact h2.symm
    · intro hn
      obtain ⟨h1, h2, h3⟩ := hn n rfl
      dsimp only at h
      unfold Py.bind ptraceEvent at h
      rw [if_neg (by rintro (hh | hh | hh); exacts [h1 hh, h2 hh, h3 hh])] at h
      by_cases h4 : n = PTRACE_EVENT_EXEC
      · rw [if_pos h4] at h
        injection h with _ h
        rw [← h]; exact hlog
      · rw [if_neg h4] at h
        injection h with _ h
        rw [← h]; exact hlog

example : getitem (two calm) 7 = some 0 ∧ Spec.waitMeaning 0x137f = .signal 19 := by decide

/-- **C32**, origin: an event says what the kernel's reply to a wait for a registered process said. -/
theorem C32_origin (K : Kern) (hz : RealPids K) (s : DSt) (hs : Reach K s) (fuel : Nat) (wanted : Option Nat)
    (hw : wanted ≠ some 0) (blocking : Bool) (ev : Event) (t : DSt)
    (h : waitProcessEvent K fuel wanted blocking s = (.ok (some ev), t)) :
    ∃ o ∈ iterate s, ∃ g b r g', t.log = s.log ++ g ++ [⟨.waitpid (some (s.heap o).pid) b (s.heap o).isThread, r, s.dict⟩] ++ g' ∧
      Says (s.heap o).pid o r ev := by
  have hr := reach_reg hs
  obtain ⟨pid, b, u, hp, hpw, hu, hru, hwait⟩ := waitProcessEvent_from hz fuel wanted hw blocking s hr (reach_pid hz hs) ev t h
  have hout := waitEventPid_out hz fuel pid b u hp hru
  rw [hwait] at hout
  obtain ⟨g, hg⟩ := hu.log
  have hone : ∀ o, dictGet u.dict pid = some o → o ∈ iterate s ∧ (s.heap o).pid = pid ∧
      (logCall K (waitCall u pid b o) u).log = s.log ++ g ++ [⟨.waitpid (some (s.heap o).pid) (!b) (s.heap o).isThread,
        K u.log (waitCall u pid b o), s.dict⟩] := by
    intro o ho
    rw [hu.dict] at ho
    have hag := (hr.agree pid o).1 (dictGet_some ho)
    refine ⟨hag.1, hag.2, ?_⟩
    show u.log ++ [⟨waitCall u pid b o, K u.log (waitCall u pid b o), u.dict⟩] = _
    rw [hg, hu.dict, hag.2]
    unfold waitCall
    rw [hu.heap]
  cases ev with
  | exit o a c =>
    obtain ⟨ho, hk, ht⟩ := hout
    have ht : t = gone o (logCall K (waitCall u pid b o) u) := ht
    obtain ⟨h1, h2, h3⟩ := hone o ho
    refine ⟨o, h1, g, !b, K u.log (waitCall u pid b o), [], ?_, ?_⟩
    · rw [ht, gone_log, h3, List.append_nil]
    · refine ⟨rfl, ?_⟩
      rw [h2]
      rcases hk with ⟨st, hst, hk⟩ | hk
      · exact Or.inr ⟨st, hst, hk⟩
      · exact Or.inl hk
  | signal o m =>
    obtain ⟨ho, st, hk, hcl, ht⟩ := hout
    have ht : t = setProc (logCall K (waitCall u pid b o) u) o { u.heap o with isStopped := true } := ht
    obtain ⟨h1, h2, h3⟩ := hone o ho
    refine ⟨o, h1, g, !b, K u.log (waitCall u pid b o), [], ?_, ?_⟩
    · rw [ht, List.append_nil]; exact h3
    · rw [h2]; exact ⟨rfl, st, hk, hcl⟩
  | execution o =>
    obtain ⟨ho, st, hk, hcl, ht⟩ := hout
    have ht : t = logCall K (waitCall u pid b o) u := ht
    obtain ⟨h1, h2, h3⟩ := hone o ho
    refine ⟨o, h1, g, !b, K u.log (waitCall u pid b o), [], ?_, ?_⟩
    · rw [ht, List.append_nil]; exact h3
    · rw [h2]; exact ⟨rfl, st, hk, hcl⟩
  | newProcess q =>
    obtain ⟨o, st, event, npid, mst, ho, hk, hcl, hev, hk2, hadd⟩ := hout
    obtain ⟨h1, h2, h3⟩ := hone o ho
    obtain ⟨g2, hg2⟩ := hadd.ext.log
    refine ⟨o, h1, g, !b, K u.log (waitCall u pid b o), [⟨.geteventmsg o (u.heap o).pid,
      K (logCall K (waitCall u pid b o) u).log (.geteventmsg o (u.heap o).pid), u.dict⟩] ++ g2, ?_, ?_⟩
    · rw [hg2]
      show (logCall K (waitCall u pid b o) u).log ++ [_] ++ g2 = _
      rw [h3, List.append_assoc]
      rfl
    · rw [h2]; exact ⟨st, event, hk, hcl, hev⟩

example := C32_origin calm realPids_calm (two calm) (reach_two calm) 5 none (by decide) true (.signal 0 19) _ (Prod.ext (by decide) rfl)

/-- The forking process is registered and its options are set. -/
def forker : DSt := runOps forking 5 [.addProcess 7 true none false] newDebugger

/-- **C32** is false for new processes: the stop of the child by `SIGUSR1` is consumed while the new
process event is made and is reported to nobody. -/
theorem C32_refuted : ∃ (K : Kern) (s t : DSt) (q : Nat) (e : Entry), RealPids K ∧ Reach K s ∧
    waitProcessEvent K 5 none true s = (.ok (some (.newProcess q)), t) ∧ e ∈ t.log ∧ e ∉ s.log ∧
    (∃ st, e.reply = .ok (t.heap q).pid st ∧ Spec.waitMeaning st = .signal 10) := by
  refine ⟨forking, forker, (waitProcessEvent forking 5 none true forker).2, 1,
    ⟨.waitpid (some 8) false false, .ok 8 0x0a7f, [(7, 0), (8, 1)]⟩, realPids_forking,
    .call .new 5 (.addProcess 7 true none false) (by show (7 : Nat) ≠ 0; decide), ?_, ?_, ?_, 0x0a7f, ?_, ?_⟩
  · have : (waitProcessEvent forking 5 none true forker).1 = .ok (some (.newProcess 1)) := by decide
    rw [← this]
  · decide
  · decide
  · decide
  · decide

/-! ### C33 -/

/-- **C33** -/
theorem C33_new_process (K : Kern) (hz : RealPids K) (s : DSt) (hs : Reach K s) (fuel : Nat) (wanted : Option Nat)
    (hw : wanted ≠ some 0) (blocking : Bool) (q : Nat) (t : DSt)
    (h : waitProcessEvent K fuel wanted blocking s = (.ok (some (.newProcess q)), t)) :
    ∃ o ∈ iterate s, ∃ event pid st mst g1 g2 b, (event = 1 ∨ event = 2 ∨ event = 3) ∧
      Spec.waitMeaning st = .event event ∧
      getitem t pid = some q ∧ q ∈ iterate t ∧ (t.heap q).pid = pid ∧ (t.heap q).parent = some o ∧
      ((t.heap q).isThread = true ↔ event = 3) ∧
      t.log = s.log ++ g1 ++ [⟨.waitpid (some (s.heap o).pid) b (s.heap o).isThread, .ok (s.heap o).pid st, s.dict⟩,
        ⟨.geteventmsg o (s.heap o).pid, .ok pid mst, s.dict⟩] ++ g2 ∧
      ∃ v vst d, g2.getLast? = some ⟨.setoptions q pid s.options, .ok v vst, d⟩ := by
  have hr := reach_reg hs
  obtain ⟨wpid, b, u, hp, hpw, hu, hru, hwait⟩ := waitProcessEvent_from hz fuel wanted hw blocking s hr (reach_pid hz hs) _ t h
  have hout := waitEventPid_out hz fuel wpid b u hp hru
  rw [hwait] at hout
  obtain ⟨o, st, event, pid, mst, ho, hk1, hcl, hev, hk2, hadd⟩ := hout
  have ho' : dictGet s.dict wpid = some o := by rw [← hu.dict]; exact ho
  have hag := (hr.agree wpid o).1 (dictGet_some ho')
  have hopt : u.options = s.options := hu.options
  obtain ⟨g, v, vst, d, hlog⟩ := hadd.opts (by
    show u.options ≠ 0
    rw [hopt]; exact reach_options hs)
  obtain ⟨g1, hg1⟩ := hu.log
  refine ⟨o, hag.1, event, pid, st, mst, g1, g ++ [⟨.setoptions q pid s.options, .ok v vst, d⟩], (!b), ?_⟩
  refine ⟨hev, hcl, hadd.reg, hadd.mem, by rw [hadd.heap]; rfl, by rw [hadd.heap]; rfl, ?_, ?_, v, vst, d, ?_⟩
  · rw [hadd.heap]
    show decide (event = PTRACE_EVENT_CLONE) = true ↔ _
    rw [decide_eq_true_iff]
    rfl
  · have e1 : (logCall K (waitCall u wpid b o) u).log = u.log ++
        [⟨.waitpid (some (s.heap o).pid) (!b) (s.heap o).isThread, .ok (s.heap o).pid st, s.dict⟩] := by
      show u.log ++ [⟨waitCall u wpid b o, K u.log (waitCall u wpid b o), u.dict⟩] = _
      rw [hk1, hu.dict, hag.2]
      unfold waitCall
      rw [hu.heap]
    have e2 : (logCall K (.geteventmsg o (u.heap o).pid) (logCall K (waitCall u wpid b o) u)).log =
        (logCall K (waitCall u wpid b o) u).log ++ [⟨.geteventmsg o (s.heap o).pid, .ok pid mst, s.dict⟩] := by
      show (logCall K (waitCall u wpid b o) u).log ++ [⟨_, K (logCall K (waitCall u wpid b o) u).log
        (.geteventmsg o (u.heap o).pid), u.dict⟩] = _
      rw [hk2, hu.dict, hu.heap]
    have e3 : (logCall K (.geteventmsg o (u.heap o).pid) (logCall K (waitCall u wpid b o) u)).options = s.options := hopt
    rw [hlog, e3, e2, e1, hg1]
    simp only [List.append_assoc, List.cons_append, List.nil_append]
  · rw [List.getLast?_append]; rfl

example : (waitProcessEvent forking 5 none true forker).1 = .ok (some (.newProcess 1)) := by decide

/-! ### C34 -/

/-- **C34**: after an exit event the process is neither running nor attached, it is not registered any more
if it was attached, and no request was made for any process. -/
theorem C34_exit_partial (K : Kern) (hz : RealPids K) (s : DSt) (hs : Reach K s) (fuel : Nat) (wanted : Option Nat)
    (hw : wanted ≠ some 0) (blocking : Bool) (o : Nat) (a b : Option Nat) (t : DSt)
    (h : waitProcessEvent K fuel wanted blocking s = (.ok (some (.exit o a b)), t)) :
    (t.heap o).running = false ∧ (t.heap o).isAttached = false ∧
    ((s.heap o).isAttached = true → ¬ Registered t o) ∧
    ∃ g, t.log = s.log ++ g ∧ ∀ e ∈ g, target e.call = none := by
  have hr := reach_reg hs
  obtain ⟨wpid, bl, u, hp, hpw, hu, hru, hwait⟩ := waitProcessEvent_from hz fuel wanted hw blocking s hr (reach_pid hz hs) _ t h
  have hout := waitEventPid_out hz fuel wpid bl u hp hru
  rw [hwait] at hout
  obtain ⟨ho, _, ht⟩ := hout
  have ht : t = gone o (logCall K (waitCall u wpid bl o) u) := ht
  have hheap : (logCall K (waitCall u wpid bl o) u).heap o = s.heap o := by
    show u.heap o = _
    rw [hu.heap]
  have hrl := hru.logCall K (waitCall u wpid bl o)
  have hcall : ∃ g, t.log = s.log ++ g ∧ ∀ e ∈ g, target e.call = none := by
    have hst := waitProcessEvent_sat (K := K) (S := Rules.plain K fun _ a => waitActs True a ∨ a = .call .sleep)
      (fun _ _ h => Or.inl h) (fun _ => Or.inr rfl) (fun _ _ _ _ => Or.inr trivial) fuel wanted (Or.inr trivial)
      blocking s trivial
    rw [h] at hst
    refine hst.newLog ?_
    intro v a c ha hc
    rcases ha with ha | ha
    · exact (waitActs_target ha hc).1
    · subst ha
      injection hc with hc
      subst hc
      rfl
  by_cases hat : (s.heap o).isAttached = true
  · have hg : t = unreg o (setProc (logCall K (waitCall u wpid bl o) u) o
        { s.heap o with running := false, isAttached := false }) := by
      rw [ht]; unfold gone; rw [hheap, if_pos hat]
    have hth : t.heap o = { s.heap o with running := false, isAttached := false } := by
      rw [hg]; exact setProc_same _ _ _
    refine ⟨by rw [hth], by rw [hth], fun _ => ?_, hcall⟩
    have hrt : RegInv t := by
      rw [hg]
      refine (hrl.setProc o _ (by rw [hheap]) (by intro e; cases e)).unreg o (by rw [setProc_same]) (Or.inl ?_)
      show o ∈ u.list
      rw [hu.list]
      exact hr.att o hat
    have hnl : o ∉ t.list := by
      rw [hg]
      show o ∉ u.list.erase o
      rw [List.Nodup.mem_erase_iff hru.nodup]
      exact fun hh => hh.1 rfl
    rintro (hh | ⟨p, hh⟩)
    · exact hnl hh
    · exact hnl ((hrt.agree p o).1 hh).1
  · have hg : t = setProc (logCall K (waitCall u wpid bl o) u) o { s.heap o with running := false } := by
      rw [ht]; unfold gone; rw [hheap, if_neg hat]
    have hth : t.heap o = { s.heap o with running := false } := by
      rw [hg]; exact setProc_same _ _ _
    refine ⟨by rw [hth], by rw [hth]; simpa using hat, fun hh => absurd hh hat, hcall⟩

/-- The traced process was killed. -/
def killed : DSt := runOps killable 5 [.addProcess 7 true none false, .kill 0 9] newDebugger

example : (waitProcessEvent killable 5 none true killed).1 = .ok (some (.exit 0 (some 9) none)) ∧
    (killed.heap 0).isAttached = true := by decide

/-- **C34** is false after a `detach` that failed: the exit event leaves the process registered. -/
theorem C34_refuted : ∃ (K : Kern) (s t : DSt) (o : Nat) (a b : Option Nat), RealPids K ∧ Reach K s ∧
    waitProcessEvent K 5 none true s = (.ok (some (.exit o a b)), t) ∧ Registered t o := by
  refine ⟨mortal, runOps mortal 5 [.addProcess 7 true none false, .detach 0, .kill 0 9] newDebugger,
    (waitProcessEvent mortal 5 none true
      (runOps mortal 5 [.addProcess 7 true none false, .detach 0, .kill 0 9] newDebugger)).2, 0, some 9, none,
    realPids_mortal, .call (.call (.call .new 5 (.addProcess 7 true none false) (by show (7 : Nat) ≠ 0; decide)) 5
      (.detach 0) trivial) 5 (.kill 0 9) trivial, ?_, Or.inl (by decide)⟩
  have : (waitProcessEvent mortal 5 none true
      (runOps mortal 5 [.addProcess 7 true none false, .detach 0, .kill 0 9] newDebugger)).1 =
      .ok (some (.exit 0 (some 9) none)) := by decide
  rw [← this]

/-! ### C35 -/

/-- **C35** is false: without processes there is an `IndexError`, for every kernel, blocking or not. -/
theorem C35_refuted (K : Kern) (fuel : Nat) (blocking : Bool) :
    (waitProcessEvent K (fuel + 1) none blocking newDebugger).1 = .error .index := rfl

/-- **C35** for the other debuggers: there is no `IndexError`. -/
theorem C35_nonempty_partial (K : Kern) (hz : RealPids K) (s : DSt) (hs : Reach K s) (fuel : Nat) (wanted : Option Nat)
    (hw : wanted ≠ some 0) (hne : wanted = none → iterate s ≠ []) (blocking : Bool) :
    (waitProcessEvent K fuel wanted blocking s).1 ≠ .error .index := by
  have hr := reach_reg hs
  rcases hx : waitProcessEvent K fuel wanted blocking s with ⟨r, t⟩
  intro he
  have he : r = .error .index := he
  subst he
  cases wanted with
  | some p =>
    have hout := waitEventPid_out hz fuel p blocking s (by intro h0; exact hw (by rw [h0])) hr
    have hx : waitEventPid K fuel p blocking s = (.error .index, t) := hx
    rw [hx] at hout
    exact hout.2.2.2.1 rfl
  | none =>
    rcases waitAny_out hz fuel blocking s hr (reach_pid hz hs) fuel s (OnlyLog.refl s) _ t hx with
      ⟨h1, _⟩ | ⟨_, pid, hpid, b, u, hu, hwt⟩ | ⟨_, h1 | h1 | h1 | ⟨e, h1⟩⟩
    · cases h1
    · have hout := waitEventPid_out hz fuel pid b u ((reach_pid hz hs).keys pid hpid) (hu.regInv hr)
      rw [hwt] at hout
      exact hout.2.2.2.1 rfl
    · refine hne rfl ?_
      show s.list = []
      rw [List.eq_nil_iff_forall_not_mem]
      intro o ho
      have := (hr.agree _ _).2 ⟨ho, rfl⟩
      rw [h1.2] at this
      cases this
    · cases h1
    · cases h1
    · cases h1

example : iterate (two calm) ≠ [] := by decide

/-! ### C36 -/

/-- **C36**, the end: if `terminate` returns true, the process was not created by the debugger, or it is not
running and not registered any more, if it was running and attached when called. -/
theorem C36_gone_partial (K : Kern) (hz : RealPids K) (s : DSt) (hs : Reach K s) (fuel o : Nat) (wait : Bool) (t : DSt)
    (hrun : (s.heap o).running = true) (hatt : (s.heap o).isAttached = true)
    (h : terminate K fuel o wait s = (.ok true, t)) :
    (s.heap o).wasAttached = false ∨ ((t.heap o).running = false ∧ ¬ Registered t o) := by
  have hr := reach_reg hs
  have ho := hr.att o hatt
  rcases terminate_ok hz fuel o wait s t hr ho ((reach_pid hz hs).obj o (hr.alloc o ho)) h with
    ⟨h1 | h1, _⟩ | ⟨u, hu, ht⟩
  · rw [hrun] at h1; cases h1
  · exact Or.inl h1
  · right
    have hru := hu.regInv hr
    have hua : (u.heap o).isAttached = true := by rw [hu.att]; exact hatt
    have hg : t = unreg o (setProc u o { u.heap o with running := false, isAttached := false }) := by
      rw [ht]; unfold gone; rw [if_pos hua]
    have hth : t.heap o = { u.heap o with running := false, isAttached := false } := by
      rw [hg]; exact setProc_same _ _ _
    have hrt : RegInv t := by
      rw [hg]
      exact (hru.setProc o { u.heap o with running := false, isAttached := false } rfl (by intro e; cases e)).unreg o (by rw [setProc_same]) (Or.inl (hru.att o hua))
    have hnl : o ∉ t.list := by
      rw [hg]
      show o ∉ u.list.erase o
      rw [List.Nodup.mem_erase_iff hru.nodup]
      exact fun hh => hh.1 rfl
    refine ⟨by rw [hth], ?_⟩
    rintro (hh | ⟨p, hh⟩)
    · exact hnl hh
    · exact hnl ((hrt.agree p o).1 hh).1

example := C36_gone_partial killable realPids_killable (two killable) (reach_two killable) 5 0 true _ (by decide) (by decide)
  (Prod.ext (by decide) rfl)

/-- **C36**, the signal: at most one `SIGKILL` per call, if the kernel never reports a stop by `SIGKILL`. -/
theorem C36_one_kill (K : Kern) (hz : RealPids K) (hk : NoKillStop K) (s : DSt) (hs : Reach K s) (fuel o : Nat)
    (ho : o < s.next) (wait : Bool) :
    ∃ g, (terminate K fuel o wait s).2.log = s.log ++ g ∧ (g.countP fun e => isKill e.call) ≤ 1 :=
  terminate_oneKill hz hk fuel o wait s (reach_reg hs) ho ((reach_pid hz hs).obj o ho)

example : (terminate killable 5 0 true (two killable)).1 = .ok true ∧ ((two killable).heap 0).running = true ∧
    ((two killable).heap 0).isAttached = true ∧ ((two killable).heap 0).wasAttached = true := by decide

/-- **C36** is false after a `detach` that failed: `terminate` returns true and the process stays registered. -/
theorem C36_refuted : ∃ (K : Kern) (s t : DSt) (o : Nat), RealPids K ∧ Reach K s ∧
    terminate K 5 o true s = (.ok true, t) ∧ (s.heap o).wasAttached = true ∧ Registered t o := by
  refine ⟨mortal, runOps mortal 5 [.addProcess 7 true none false, .detach 0] newDebugger,
    (terminate mortal 5 0 true (runOps mortal 5 [.addProcess 7 true none false, .detach 0] newDebugger)).2, 0,
    realPids_mortal, .call (.call .new 5 (.addProcess 7 true none false) (by show (7 : Nat) ≠ 0; decide)) 5
      (.detach 0) trivial, ?_, by decide, Or.inl (by decide)⟩
  have : (terminate mortal 5 0 true (runOps mortal 5 [.addProcess 7 true none false, .detach 0] newDebugger)).1 =
      .ok true := by decide
  rw [← this]

/-! ### C37 -/

/-- **C37**, accumulation: the options are exactly the bits of the calls made so far. -/
theorem C37_accumulate (K : Kern) (s t : DSt) (ops : List Op) (h : Trace K s ops t) :
    t.options = ops.foldl (fun acc op => acc ||| optionBits op) s.options ∧
    ∀ bit, s.options.testBit bit = true → t.options.testBit bit = true := by
  refine ⟨trace_options h, ?_⟩
  intro bit hb
  rw [trace_options h]
  generalize s.options = n at hb
  clear h
  induction ops generalizing n with
  | nil => exact hb
  | cons op ops ih => exact ih _ (by rw [Nat.testBit_or, hb]; rfl)

example := C37_accumulate calm (two calm) _ _ (.snoc (.snoc .nil 5 .traceFork) 5 .traceExec)

/-- **C37**, new processes: `addProcess` that returns has set the options accumulated so far, as its last
request, and they are never empty. -/
theorem C37_reach (K : Kern) (hz : RealPids K) (s : DSt) (hs : Reach K s) (fuel pid : Nat) (hp : pid ≠ 0)
    (isAttached : Bool) (parent : Option Nat) (isThread : Bool) (q : Nat) (t : DSt)
    (h : addProcess K (waitEventPid K fuel) pid isAttached parent isThread s = (.ok q, t)) :
    getitem t pid = some q ∧ t.options = s.options ∧ s.options ≠ 0 ∧
    ∃ g v st d, t.log = s.log ++ g ++ [⟨.setoptions q pid s.options, .ok v st, d⟩] := by
  have hout : AddOK s t pid isAttached parent isThread q :=
    addProcess_out (waitEventPid_out hz fuel · true) pid hp isAttached parent isThread s (reach_reg hs) _ t h
  exact ⟨hout.reg, hout.ext.options, reach_options hs, hout.opts (reach_options hs)⟩

example : (runOps calm 5 [.traceFork, .traceExec, .addProcess 7 true none false] newDebugger).options = 23 ∧
    (runOps calm 5 [.traceFork, .traceExec, .addProcess 7 true none false] newDebugger).log.map (fun e => e.call) =
      [.waitpid (some 7) false false, .setoptions 0 7 23] := by decide

/-! ### C70 -/

/-- **C70**, blocking: no `None`. -/
theorem C70_blocking (K : Kern) (hz : RealPids K) (s : DSt) (hs : Reach K s) (fuel : Nat) (wanted : Option Nat)
    (hw : wanted ≠ some 0) : (waitProcessEvent K fuel wanted true s).1 ≠ .ok none := by
  have hr := reach_reg hs
  rcases hx : waitProcessEvent K fuel wanted true s with ⟨r, t⟩
  intro he
  have he : r = .ok none := he
  subst he
  cases wanted with
  | some p =>
    have hout := waitEventPid_out hz fuel p true s (by intro h0; exact hw (by rw [h0])) hr
    have hx : waitEventPid K fuel p true s = (.ok none, t) := hx
    rw [hx] at hout
    cases hout.1
  | none =>
    rcases waitAny_out hz fuel true s hr (reach_pid hz hs) fuel s (OnlyLog.refl s) _ t hx with
      ⟨_, h1, _⟩ | ⟨h1, _⟩ | ⟨_, h1 | h1 | h1 | ⟨e, h1⟩⟩
    · cases h1
    · exact h1 rfl
    · cases h1.1
    · cases h1
    · cases h1
    · cases h1

example := C70_blocking calm realPids_calm (two calm) (reach_two calm) 5 (some 9) (by decide)

/-- One poll after the other that all report nothing. -/
theorem pollPids_none {K : Kern} (hz : RealPids K) (fuel : Nat) (s : DSt) (hr : RegInv s) (hp : PidInv s) :
    ∀ (es : List (Nat × Nat)) (s1 : DSt), OnlyLog s s1 → (∀ e ∈ es, e ∈ s.dict) →
    ∀ t, pollPids (waitEventPid K fuel) (es.map Prod.fst) s1 = (.ok none, t) →
    ∃ g, t.log = s1.log ++ g ∧ g.map (fun e => e.call) =
      es.map (fun e => .waitpid (some e.1) true (s.heap e.2).isThread) ∧ ∀ e ∈ g, ∃ st, e.reply = .ok 0 st := by
  intro es
  induction es with
  | nil =>
    intro s1 _ _ t h
    injection h with _ h
    subst h
    exact ⟨[], by simp, rfl, by simp⟩
  | cons e es ih =>
    intro s1 h1 hes t h
    have he := hes e List.mem_cons_self
    have hw := waitEventPid_out hz fuel e.1 false s1 (hp.keys e.1 (List.mem_map.2 ⟨e, he, rfl⟩)) (h1.regInv hr)
    rw [List.map_cons] at h
    unfold pollPids Py.bind at h
    generalize waitEventPid K fuel e.1 false s1 = x at h hw
    obtain ⟨r1, t1⟩ := x
    cases r1 with
    | error e => cases h
    | ok ev =>
      cases ev with
      | some ev => injection h with h _; injection h with h; cases h
      | none =>
        obtain ⟨_, o, ho, ⟨st, hst⟩, ht⟩ := hw
        have ht : t1 = logCall K (waitCall s1 e.1 false o) s1 := ht
        rw [h1.dict, dictGet_of_mem hr.keys he] at ho
        injection ho with ho
        subst ho
        obtain ⟨g, hg, hc, hq⟩ := ih t1 (by rw [ht]; exact h1.trans (OnlyLog.logCall _ s1))
          (fun e' he' => hes e' (List.mem_cons_of_mem _ he')) t h
        refine ⟨⟨waitCall s1 e.1 false e.2, K s1.log (waitCall s1 e.1 false e.2), s1.dict⟩ :: g, ?_, ?_, ?_⟩
        · rw [hg, ht]
          show s1.log ++ [_] ++ g = _
          rw [List.append_assoc]
          rfl
        · rw [List.map_cons, List.map_cons, hc]
          show waitCall s1 e.1 false e.2 :: _ = _
          unfold waitCall
          rw [h1.heap]
          rfl
        · intro e' he'
          rcases List.mem_cons.1 he' with he' | he'
          · rw [he']; exact ⟨st, hst⟩
          · exact hq e' he'

/-- **C70**, polling: `None` means that every registered process was polled, in the order of the registry, and
the kernel reported nothing (pid 0). -/
theorem C70_polled (K : Kern) (hz : RealPids K) (s : DSt) (hs : Reach K s) (fuel : Nat) (t : DSt)
    (h : waitProcessEvent K fuel none false s = (.ok none, t)) :
    ∃ g, t.log = s.log ++ g ∧ g.map (fun e => e.call) =
      s.dict.map (fun e => .waitpid (some e.1) true (s.heap e.2).isThread) ∧
      ∀ e ∈ g, ∃ st, e.reply = .ok 0 st := by
  have hr := reach_reg hs
  have hp := reach_pid hz hs
  have hpoll := pollPids_none hz fuel s hr hp s.dict s (OnlyLog.refl s) (fun _ h => h)
  have h : waitAny K fuel fuel false s = (.ok none, t) := h
  cases fuel with
  | zero => cases h
  | succ fuel =>
    unfold waitAny at h
    cases hk : s.dict.map Prod.fst with
    | nil => rw [hk] at h; cases h
    | cons p ps =>
      cases ps with
      | nil =>
        rw [hk] at h hpoll
        refine hpoll t ?_
        have h : waitEventPid K (fuel + 1) p false s = (.ok none, t) := h
        show Py.bind (waitEventPid K (fuel + 1) p false) _ s = _
        unfold Py.bind
        rw [h]
        rfl
      | cons q ps =>
        rw [hk] at h hpoll
        refine hpoll t ?_
        dsimp only at h
        unfold Py.bind at h
        generalize pollPids (waitEventPid K (fuel + 1)) (p :: q :: ps) s = x at h
        obtain ⟨r, u⟩ := x
        cases r with
        | error e => cases h
        | ok ev =>
          cases ev with
          | none => injection h with _ h; subst h; rfl
          | some ev => injection h with h _; injection h with h; cases h

/-- Nothing to report. -/
def quiet : Kern := fun log c =>
  match c with
  | .waitpid (some _) true _ => .ok 0 0
  | c => calm log c

example : RealPids quiet ∧ (waitProcessEvent quiet 5 none false (two quiet)).1 = .ok none ∧
    ((waitProcessEvent quiet 5 none false (two quiet)).2.log.drop (two quiet).log.length).map (fun e => e.call) =
      [.waitpid (some 7) true false, .waitpid (some 9) true false] :=
  ⟨by (intro log o pid st h; injection h with h _; cases h), by decide, by decide⟩

end PT
