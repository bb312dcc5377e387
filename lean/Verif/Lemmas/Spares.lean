import Verif.Lemmas.Ends
import Verif.Lemmas.Asks
import Verif.Spec.Spares

/-! No signal after the end of a process was told. -/

namespace PT
open Spec

variable {α β : Type} {K : Kern} {N : Nat → Prop}

/-- Objects whose end was told are not running; a number belongs to one object. -/
structure Mourned (N : Nat → Prop) (s : DSt) : Prop where
  dead : ∀ x ∈ s.log, ∀ q o, WaitTells q x → (q, o) ∈ x.dict → o < s.next ∧ (s.heap o).running = false
  log : SparesEnded N s.log
  own : ∀ p o, (p, o) ∈ s.dict → o < s.next
  uniq : ∀ p o i, (p, o) ∈ s.dict → (p, i) ∈ s.dict → o = i
  det : DetachesLiving s.log

theorem SparesEnded.snoc {log : List Entry} {e : Entry} (h : SparesEnded N log)
    (he : ∀ o p n, e.call = .kill o p n → N n → ∀ x ∈ log, ∀ q, WaitTells q x → (q, o) ∉ x.dict) : SparesEnded N (log ++ [e]) := by
  intro b x a hx
  rcases snoc_split hx with ⟨_, rfl, rfl⟩ | ⟨l', _, hr⟩
  · exact he
  · exact h b x l' hr

theorem DetachesLiving.snoc {log : List Entry} {e : Entry} (h : DetachesLiving log)
    (he : ∀ o p, e.call = .detach o p → ∀ x ∈ log, ∀ q, WaitTells q x → (q, o) ∉ x.dict) : DetachesLiving (log ++ [e]) := by
  intro b x a hx
  rcases snoc_split hx with ⟨_, rfl, rfl⟩ | ⟨l', _, hr⟩
  · exact he
  · exact h b x l' hr

/-- A call that tells no end. -/
theorem Mourned.call {s : DSt} (h : Mourned N s) (c : Call) (ht : ∀ q o, WaitTells q ⟨c, K s.log c, s.dict⟩ → (q, o) ∉ s.dict)
    (hk : ∀ o p n, c = .kill o p n → N n → (s.heap o).running = true)
    (hd : ∀ o p, c = .detach o p → (s.heap o).running = true := by intro _ _ hx; cases hx) : Mourned N (logCall K c s) := by
  refine ⟨fun x hx q o h1 h2 => ?_, SparesEnded.snoc h.log fun o p n hc hN x hx q h1 h2 => ?_, h.own, h.uniq, DetachesLiving.snoc h.det fun o p hc x hx q h1 h2 => ?_⟩
  · rcases List.mem_append.1 hx with hx | hx
    · exact h.dead x hx q o h1 h2
    · rw [List.mem_singleton.1 hx] at h1 h2
      exact absurd h2 (ht q o h1)
  · have := (h.dead x hx q o h1 h2).2
    rw [hk o p n hc hN] at this
    cases this
  · have := (h.dead x hx q o h1 h2).2
    rw [hd o p hc] at this
    cases this

theorem tells_wait {q : Nat} {e : Entry} (h : WaitTells q e) : ∃ w nh wl, e.call = .waitpid w nh wl := by
  rcases h.2 with ⟨w, nh, wl, st, hc, _⟩ | ⟨nh, wl, hc, _⟩
  · exact ⟨w, nh, wl, hc⟩
  · exact ⟨some q, nh, wl, hc⟩

/-- Another call than a wait or a signal. -/
theorem Mourned.logCall {s : DSt} (h : Mourned N s) (c : Call) (hw : ∀ w nh wl, c ≠ .waitpid w nh wl) (hk : ∀ o p n, c ≠ .kill o p n)
    (hd : ∀ o p, c ≠ .detach o p := by intro _ _ hx; cases hx) : Mourned N (logCall K c s) :=
  h.call c (fun _ _ hx => (by obtain ⟨w, nh, wl, hc⟩ := tells_wait hx; exact absurd hc (hw w nh wl))) (fun o p n hc => absurd hc (hk o p n)) fun o p hc => absurd hc (hd o p)

theorem Mourned.setProc {s : DSt} (h : Mourned N s) (o : Nat) (q : Proc) (hq : (s.heap o).running = false → q.running = false) : Mourned N (setProc s o q) := by
  refine ⟨fun x hx p i h1 h2 => ⟨(h.dead x hx p i h1 h2).1, ?_⟩, h.log, h.own, h.uniq, h.det⟩
  have := (h.dead x hx p i h1 h2).2
  rw [setProc_heap]
  split
  · rename_i e
    exact hq (e ▸ this)
  · exact this

theorem Mourned.unreg {s : DSt} (h : Mourned N s) (o : Nat) : Mourned N (unreg o s) :=
  ⟨h.dead, h.log, fun p i hm => h.own p i ((mem_dictDel _).1 hm).1, fun p i j hi hj => h.uniq p i j ((mem_dictDel _).1 hi).1 ((mem_dictDel _).1 hj).1, h.det⟩

theorem Mourned.add {s : DSt} (h : Mourned N s) (pid : Nat) (a : Bool) (parent : Option Nat) (th : Bool) :
    Mourned N { PT.setProc s s.next (freshProc pid a parent th) with
      next := s.next + 1, dict := dictSet s.dict pid s.next, list := s.list ++ [s.next] } := by
  refine ⟨fun x hx q o h1 h2 => ?_, h.log, fun p o hm => ?_, fun p o i ho hi => ?_, h.det⟩
  · have hd := h.dead x hx q o h1 h2
    refine ⟨Nat.lt_succ_of_lt hd.1, ?_⟩
    show ((PT.setProc s s.next (freshProc pid a parent th)).heap o).running = false
    rw [setProc_heap, if_neg (Nat.ne_of_lt hd.1)]
    exact hd.2
  · have hm : (p, o) ∈ dictSet s.dict pid s.next := hm
    show o < s.next + 1
    rcases (mem_dictSet _).1 hm with he | ⟨_, hm⟩
    · rw [(Prod.mk.inj he).2]
      exact Nat.lt_succ_self _
    · exact Nat.lt_succ_of_lt (h.own p o hm)
  · have ho : (p, o) ∈ dictSet s.dict pid s.next := ho
    have hi : (p, i) ∈ dictSet s.dict pid s.next := hi
    rcases (mem_dictSet _).1 ho with he | ⟨hne, ho⟩
    · rcases (mem_dictSet _).1 hi with he' | ⟨hne', _⟩
      · rw [(Prod.mk.inj he).2, (Prod.mk.inj he').2]
      · exact absurd (Prod.mk.inj he).1 hne'
    · rcases (mem_dictSet _).1 hi with he' | ⟨_, hi⟩
      · exact absurd (Prod.mk.inj he').1 hne
      · exact h.uniq p o i ho hi

/-- The result of some code keeps the invariant and forgets nothing. -/
structure Mourn (N : Nat → Prop) (s : DSt) (x : Except Exc α × DSt) : Prop where
  inv : Mourned N x.2
  after : After s x.2

section
variable {s : DSt}

theorem Mourn.bind {m : Py DSt β} {f : β → Py DSt α} (h : Mourn N s (m s)) (hf : ∀ b t, Mourned N t → After s t → Mourn N t (f b t)) : Mourn N s (Py.bind m f s) := by
  unfold Py.bind
  rcases hm : m s with ⟨r, t⟩
  rw [hm] at h
  cases r with
  | ok b =>
    have h2 := hf b t h.inv h.after
    exact ⟨h2.inv, h.after.trans h2.after⟩
  | error e => exact ⟨h.inv, h.after⟩

theorem Mourn.base {x : Except Exc α × DSt} {t : DSt} (h : Mourn N t x) (hn : After s t) : Mourn N s x := ⟨h.inv, hn.trans h.after⟩

theorem mourn_same (h : Mourned N s) (r : Except Exc α) : Mourn N s (r, s) := ⟨h, .refl _⟩

theorem mourn_pure (h : Mourned N s) (a : α) : Mourn N s (Py.pure a s) := ⟨h, .refl _⟩

theorem mourn_raise (h : Mourned N s) (e : Exc) : Mourn N s (Py.raise e s : Except Exc α × DSt) := ⟨h, .refl _⟩

theorem mourn_ptrace (h : Mourned N s) (c : Call) (hw : ∀ w nh wl, c ≠ .waitpid w nh wl) (hk : ∀ o p n, c ≠ .kill o p n)
    (hd : ∀ o p, c ≠ .detach o p := by intro _ _ hx; cases hx) : Mourn N s (ptraceCall K c s) := by
  rw [ptraceCall_run]
  exact ⟨h.logCall c hw hk hd, .one c⟩

theorem mourn_sleep (h : Mourned N s) : Mourn N s (osCall K .sleep s) := by
  rw [osCall_run]
  exact ⟨h.logCall _ (fun _ _ _ hx => nomatch hx) (fun _ _ _ hx => nomatch hx), .one _⟩

theorem mourn_upd (h : Mourned N s) (o : Nat) (f : Proc → Proc) (hp : (f (s.heap o)).pid = (s.heap o).pid) (hw : (f (s.heap o)).wasAttached = (s.heap o).wasAttached)
    (hq : (s.heap o).running = false → (f (s.heap o)).running = false) : Mourn N s (updProc o f s) := ⟨h.setProc o _ hq, .setProc _ _ _ hp hw hq⟩

theorem mourn_detach (h : Mourned N s) (o : Nat) : Mourn N s (detach K o s) := by
  have h1 := h.setProc o { s.heap o with isAttached := false } id
  have h2 : (s.heap o).running = true → Mourned N (logCall K (.detach o (s.heap o).pid) (setProc s o { s.heap o with isAttached := false })) := fun hr =>
    h1.call _ (fun _ _ hx => (by obtain ⟨w, nh, wl, hc⟩ := tells_wait hx; cases hc)) (fun _ _ _ hx => nomatch hx) fun i p hx => by
      injection hx with hx
      rw [setProc_heap, ← hx, if_pos rfl]
      exact hr
  have a1 : After s (setProc s o { s.heap o with isAttached := false }) := .setProc _ _ _ rfl rfl id
  have a2 := a1.trans (.one (K := K) (.detach o (s.heap o).pid))
  rcases detach_cases (K := K) o s with ⟨_, e⟩ | ⟨_, _, e⟩ | ⟨_, hr, _, e⟩ | ⟨_, hr, x, hx, e⟩ <;> rw [e]
  · exact mourn_same h _
  · exact ⟨h1.unreg o, a1.trans (.unreg _ _)⟩
  · exact ⟨(h2 hr).unreg o, a2.trans (.unreg _ _)⟩
  · exact ⟨h2 hr, a2⟩

theorem mourn_notRunning (h : Mourned N s) (o : Nat) : Mourn N s (notRunning K o s) :=
  Mourn.bind (mourn_upd h o _ rfl rfl fun _ => rfl) fun _ _ ht _ => mourn_detach ht o

/-- The end was told, and now it is noticed. -/
theorem mourn_bury (h : Mourned N s) (c : Call) (hk : ∀ o p n, c ≠ .kill o p n) {p o : Nat} (ho : (p, o) ∈ s.dict)
    (ht : ∀ q, WaitTells q ⟨c, K s.log c, s.dict⟩ → q = p) (hd : ∀ o p, c ≠ .detach o p := by intro _ _ hx; cases hx) : Mourn N s (notRunning K o (logCall K c s)) := by
  have h1 : Mourned N (setProc (logCall K c s) o { (logCall K c s).heap o with running := false }) := by
    refine ⟨fun x hx q i h1 h2 => ?_, SparesEnded.snoc h.log fun o p n hc => absurd hc (hk o p n), h.own, h.uniq, DetachesLiving.snoc h.det fun o p hc => absurd hc (hd o p)⟩
    rcases List.mem_append.1 hx with hx | hx
    · have hd := h.dead x hx q i h1 h2
      refine ⟨hd.1, ?_⟩
      rw [setProc_heap]
      split
      · rfl
      · exact hd.2
    · rw [List.mem_singleton.1 hx] at h1 h2
      have h2 : (q, i) ∈ s.dict := h2
      rw [ht q h1] at h2
      have hi := h.uniq p i o h2 ho
      subst hi
      exact ⟨h.own _ _ h2, by rw [setProc_heap, if_pos rfl]⟩
  exact (mourn_detach h1 o).base ((After.one c).trans (.setProc _ _ _ rfl rfl fun _ => rfl))

theorem mourn_cont (h : Mourned N s) (o n : Nat) : Mourn N s (procCont K o n s) :=
  Mourn.bind (mourn_ptrace h _ (fun _ _ _ hx => nomatch hx) (fun _ _ _ hx => nomatch hx)) fun _ _ ht _ => mourn_upd ht o _ rfl rfl id

theorem mourn_syscall (h : Mourned N s) (o n : Nat) : Mourn N s (procSyscall K o n s) :=
  Mourn.bind (mourn_ptrace h _ (fun _ _ _ hx => nomatch hx) (fun _ _ _ hx => nomatch hx)) fun _ _ ht _ => mourn_upd ht o _ rfl rfl id

theorem mourn_singleStep (h : Mourned N s) (o : Nat) : Mourn N s (procSingleStep K o s) :=
  Mourn.bind (mourn_ptrace h _ (fun _ _ _ hx => nomatch hx) (fun _ _ _ hx => nomatch hx)) fun _ _ ht _ => mourn_pure ht ()

theorem mourn_kill (h : Mourned N s) (o n : Nat) (hr : N n → (s.heap o).running = true) : Mourn N s (procKill K o n s) := by
  unfold procKill
  refine Mourn.bind (m := osCall K _) ?_ fun _ _ ht _ => mourn_pure ht ()
  rw [osCall_run]
  exact ⟨h.call _ (fun q _ hx => by obtain ⟨w, nh, wl, hc⟩ := tells_wait hx; cases hc) fun i p m hc => by cases hc; exact hr, .one _⟩

theorem mourn_setoptions (h : Mourned N s) (o n : Nat) : Mourn N s (procSetoptions K o n s) :=
  Mourn.bind (mourn_ptrace h _ (fun _ _ _ hx => nomatch hx) (fun _ _ _ hx => nomatch hx)) fun _ _ ht _ => mourn_pure ht ()

theorem mourn_display (h : Mourned N s) (o : Nat) : Mourn N s (eventDisplay K o s) :=
  Mourn.bind (mourn_ptrace h _ (fun _ _ _ hx => nomatch hx) (fun _ _ _ hx => nomatch hx)) fun _ _ ht _ => mourn_pure ht ()

theorem mourn_attach (h : Mourned N s) (o : Nat) : Mourn N s (procAttach K o s) := by
  unfold procAttach
  split
  · exact mourn_same h _
  · exact Mourn.bind (mourn_ptrace h _ (fun _ _ _ hx => nomatch hx) (fun _ _ _ hx => nomatch hx)) fun _ _ ht _ => mourn_upd ht o _ rfl rfl id

theorem mourn_terminated (h : Mourned N s) (o : Nat) : Mourn N s (processTerminated K o s) :=
  Mourn.bind (mourn_notRunning h o) fun _ _ ht _ => mourn_pure ht _

/-- Code that waits for a process. -/
def MournWait (N : Nat → Prop) (W : WaitPid) : Prop := ∀ p b s, Mourned N s → Mourn N s (W p b s)

theorem mourn_filterEvent (h : Mourned N s) (signals : List Nat) (e : Option Event) : Mourn N s (filterEvent signals e s) := by
  unfold filterEvent
  split
  · split
    · exact mourn_pure h _
    · exact mourn_raise h _
  · exact mourn_raise h _
  · exact mourn_raise h _

theorem mourn_newProc (h : Mourned N s) (pid : Nat) (a : Bool) (parent : Option Nat) (th : Bool) :
    Mourn N s (Py.bind (newProc K pid a parent th) (fun o => Py.bind (register pid o) fun _ => Py.pure o) s) := by
  cases a with
  | true => exact ⟨h.add pid true parent th, .add _ _ _ _⟩
  | false =>
    have hl := h.logCall (K := K) (.attach s.next pid) (fun _ _ _ hx => nomatch hx) (fun _ _ _ hx => nomatch hx)
    have hrun := ptraceCall_run (K := K) (.attach s.next pid) s
    simp only [Py.bind, newProc, hrun, Bool.false_eq_true, if_false]
    cases hr : K s.log (.attach s.next pid) with
    | ok v st => exact ⟨hl.add pid false parent th, (After.one (K := K) (.attach s.next pid)).trans (.add _ _ _ _)⟩
    | err e => exact ⟨hl, .one _⟩
    | interrupt => exact ⟨hl, .one _⟩

theorem mourn_addExcept (h : Mourned N s) (o : Nat) (e : Exc) : Mourn N s (addProcessExcept K o e s) := by
  unfold addProcessExcept
  split
  · exact mourn_pure h ()
  · exact mourn_display h _
  · exact Mourn.bind (mourn_upd h o _ rfl rfl id) fun _ t ht _ => Mourn.bind (mourn_detach ht o) fun _ u hu _ => mourn_raise hu _

theorem mourn_addWait {W : WaitPid} (hW : MournWait N W) (h : Mourned N s) (o pid : Nat) : Mourn N s (addProcessWait K W o pid s) := by
  have hw : Mourn N s (waitSignalsPid W [SIGTRAP, SIGSTOP] pid s) := Mourn.bind (hW pid true s h) fun e t ht _ => mourn_filterEvent ht _ e
  unfold addProcessWait
  split
  · rename_i e
    rw [e] at hw
    exact ⟨hw.inv, hw.after⟩
  · rename_i x t e
    rw [e] at hw
    exact (mourn_addExcept hw.inv o x).base hw.after

theorem mourn_add {W : WaitPid} (hW : MournWait N W) (h : Mourned N s) (pid : Nat) (a : Bool) (parent : Option Nat) (th : Bool) :
    Mourn N s (addProcess K W pid a parent th s) := by
  unfold addProcess
  split
  · exact mourn_same h _
  · have hassoc : Py.bind (newProc K pid a parent th) (fun o =>
        Py.bind (register pid o) fun _ =>
        Py.bind (addProcessWait K W o pid) fun _ =>
        Py.bind (addProcessOptions K o) fun _ =>
        Py.pure o) =
      Py.bind (Py.bind (newProc K pid a parent th) (fun o =>
        Py.bind (register pid o) fun _ => Py.pure o)) fun o =>
        Py.bind (addProcessWait K W o pid) fun _ =>
        Py.bind (addProcessOptions K o) fun _ =>
        Py.pure o := by
      rw [py_bind_assoc]
      congr 1
    rw [hassoc]
    refine Mourn.bind (mourn_newProc h pid a parent th) fun o t ht _ => ?_
    refine Mourn.bind (mourn_addWait hW ht o pid) fun _ u hu _ => ?_
    refine Mourn.bind ?_ fun _ v hv _ => mourn_pure hv o
    unfold addProcessOptions
    split
    · exact mourn_setoptions hu o _
    · exact mourn_same hu _

theorem mourn_ptraceEvent {W : WaitPid} (hW : MournWait N W) (h : Mourned N s) (o : Nat) (event : Int) : Mourn N s (ptraceEvent K W o event s) := by
  unfold ptraceEvent
  split
  · exact Mourn.bind (mourn_ptrace h _ (fun _ _ _ hx => nomatch hx) (fun _ _ _ hx => nomatch hx)) fun p t ht _ => Mourn.bind (mourn_add hW ht p true (some o) _) fun q u hu _ =>
      mourn_pure hu _
  · split
    · exact mourn_same h _
    · exact mourn_same h _

/-- What is done with the status that a wait gave. -/
theorem mourn_status {W : WaitPid} (hW : MournWait N W) (h : Mourned N s) (w : Option Nat) (nh wl : Bool) {p o : Nat} (ho : (p, o) ∈ s.dict) {st : Int}
    (hr : K s.log (.waitpid w nh wl) = .ok p st) : Mourn N s (processStatus K W o st (logCall K (.waitpid w nh wl) s)) := by
  have hb : Mourn N s (notRunning K o (logCall K (.waitpid w nh wl) s)) := by
    refine mourn_bury h _ (fun _ _ _ hx => (by cases hx)) ho fun q hq => ?_
    rcases hq.2 with ⟨_, _, _, _, _, _, hx, _⟩ | ⟨_, _, _, hx⟩
    · have hx := hr.symm.trans hx
      injection hx with hx _
      exact hx.symm
    · have hx := hr.symm.trans hx
      cases hx
  have hl : ¬ OverStatus st → Mourned N (logCall K (.waitpid w nh wl) s) := fun hn => by
    refine h.call _ (fun q _ hq => ?_) fun _ _ _ hx => nomatch hx
    rcases hq.2 with ⟨_, _, _, _, _, _, hx, hov⟩ | ⟨_, _, _, hx⟩
    · have hx := hr.symm.trans hx
      injection hx with _ hx
      exact absurd (hx ▸ hov) hn
    · have hx := hr.symm.trans hx
      cases hx
  have hn : (∀ c, waitMeaning st ≠ .exited c) → (∀ c, waitMeaning st ≠ .killed c) → ¬ OverStatus st := fun h1 h2 hx => by
    rcases hx with ⟨c, hx⟩ | ⟨c, hx⟩
    · exact h1 c hx
    · exact h2 c hx
  have a1 : After s (logCall K (.waitpid w nh wl) s) := .one _
  have hbind : ∀ ev : Event, Mourn N s (Py.bind (notRunning K o) (fun _ => Py.pure ev) (logCall K (.waitpid w nh wl) s)) := fun ev => by
    unfold Py.bind
    generalize notRunning K o (logCall K (.waitpid w nh wl) s) = x at hb
    obtain ⟨r, t⟩ := x
    cases r <;> exact ⟨hb.inv, hb.after⟩
  unfold processStatus
  rw [classify_kind]
  cases hm : waitMeaning st with
  | exited c => exact hbind _
  | killed c => exact hbind _
  | _ =>
    have hL := hl (hn (fun c hx => by rw [hm] at hx; cases hx) fun c hx => by rw [hm] at hx; cases hx)
    first
      | exact (mourn_ptraceEvent hW hL o _).base a1
      | exact (Mourn.bind (mourn_upd hL o _ rfl rfl id) fun _ _ ht _ => mourn_pure ht _).base a1
      | exact (mourn_raise hL _).base a1

theorem mourn_waitOne {n : Nat} (ih : MournWait N (waitEventPid K n)) (p : Nat) (b : Bool) (h : Mourned N s) (w : Option Nat) (nh wl : Bool) (hw : w = some p ∧ p ≠ 0 ∨ w = none ∧ p = 0) :
    Mourn N s (match Py.bind (osCall K (.waitpid w nh wl)) (checkPid p b) s with
      | (.ok r, s') => waitReply K (waitEventPid K n) (waitEventPid K n p b) b r s'
      | (.error e, s') => waitExcept K p e s') := by
  have a1 : After s (logCall K (.waitpid w nh wl) s) := .one _
  unfold Py.bind
  rw [osCall_run]
  cases hr : K s.log (.waitpid w nh wl) with
  | ok v st =>
    simp only [osRes]
    have hq : ∀ q, WaitTells q ⟨.waitpid w nh wl, K s.log (.waitpid w nh wl), s.dict⟩ → q = v ∧ q ≠ 0 ∧ (w = some q ∨ w = none) := fun q hq => by
      rcases hq.2 with ⟨w', _, _, _, hc, hw', hx, _⟩ | ⟨_, _, _, hx⟩
      · have hx := hr.symm.trans hx
        injection hx with hx _
        injection hc with hc
        exact ⟨hx.symm, hq.1, hc ▸ hw'⟩
      · have hx := hr.symm.trans hx
        cases hx
    have hl : (∀ o, v ≠ 0 → (w = some v ∨ w = none) → (v, o) ∉ s.dict) → Mourned N (logCall K (.waitpid w nh wl) s) := fun hn =>
      h.call _ (fun q o hx => by
        obtain ⟨rfl, h1, h2⟩ := hq q hx
        exact hn o h1 h2) fun _ _ _ hx => nomatch hx
    unfold checkPid
    split
    · rename_i r s' e
      split at e
      · cases e
      · injection e with e1 e2
        injection e1 with e1
        subst e1 e2
        refine Mourn.base (t := s) ?_ (.refl _)
        unfold waitReply
        split
        · rename_i hz
          have hz : v = 0 := by
            simp at hz
            exact hz.2
          exact (mourn_same (hl fun _ hx => absurd hz hx) _).base a1
        · split
          · rename_i o ho
            have hs := mourn_status ih h w nh wl (dictGet_some ho) hr
            unfold Py.bind
            generalize processStatus K (waitEventPid K n) o st (logCall K (.waitpid w nh wl) s) = x at hs
            obtain ⟨r, t⟩ := x
            cases r <;> exact ⟨hs.inv, hs.after⟩
          · rename_i ho
            exact (ih p b _ (hl fun o _ _ => dictGet_none.1 ho o)).base a1
    · rename_i r s' e
      split at e
      · rename_i hx
        injection e with e1 e2
        injection e1 with e1
        subst e1 e2
        unfold waitExcept
        rw [if_neg (by intro hx; cases hx)]
        refine (mourn_same (hl fun o h1 h2 => ?_) _).base a1
        simp at hx
        rcases hw with ⟨rfl, hp⟩ | ⟨_, hp⟩
        · rcases h2 with h2 | h2
          · injection h2 with h2
            exact absurd h2.symm hx.2
          · cases h2
        · exact absurd hp hx.1.2
      · cases e
  | err e =>
    simp only [osRes]
    unfold waitExcept
    split
    · rename_i he
      have he : e = 10 := by injection he
      split
      · rename_i o ho
        have hb := mourn_bury (K := K) h (.waitpid w nh wl) (fun _ _ _ hx => nomatch hx) (dictGet_some ho) fun q hq => by
          rcases hq.2 with ⟨_, _, _, _, _, _, hx, _⟩ | ⟨_, _, hc, _⟩
          · have hx := hr.symm.trans hx
            cases hx
          · injection hc with hc
            rcases hw with ⟨hw, _⟩ | ⟨hw, _⟩
            · rw [hw] at hc
              injection hc with hc
              exact hc.symm
            · rw [hw] at hc
              cases hc
        unfold processTerminated Py.bind
        generalize notRunning K o (logCall K (.waitpid w nh wl) s) = x at hb
        obtain ⟨r, t⟩ := x
        cases r <;> exact ⟨hb.inv, hb.after⟩
      · rename_i ho
        refine (mourn_same (h.call _ (fun q o hq hm => ?_) fun _ _ _ hx => (by cases hx)) _).base a1
        rcases hq.2 with ⟨_, _, _, _, _, _, hx, _⟩ | ⟨_, _, hc, _⟩
        · have hx := hr.symm.trans hx
          cases hx
        · injection hc with hc
          rcases hw with ⟨hw, _⟩ | ⟨hw, _⟩
          · rw [hw] at hc
            injection hc with hc
            exact dictGet_none.1 ho o (hc ▸ hm)
          · rw [hw] at hc
            cases hc
    · rename_i he
      refine (mourn_same (h.call _ (fun q o hq hm => ?_) fun _ _ _ hx => (by cases hx)) _).base a1
      rcases hq.2 with ⟨_, _, _, _, _, _, hx, _⟩ | ⟨_, _, _, hx⟩
      · have hx := hr.symm.trans hx
        cases hx
      · have hx := hr.symm.trans hx
        injection hx with hx
        exact he (by rw [hx]; rfl)
  | interrupt =>
    simp only [osRes]
    unfold waitExcept
    rw [if_neg (by intro hx; cases hx)]
    refine (mourn_same (h.call _ (fun q o hq hm => ?_) fun _ _ _ hx => (by cases hx)) _).base a1
    rcases hq.2 with ⟨_, _, _, _, _, _, hx, _⟩ | ⟨_, _, _, hx⟩ <;> (have hx := hr.symm.trans hx; cases hx)

theorem mourn_waitEventPid (n : Nat) : MournWait N (waitEventPid K n) := by
  induction n with
  | zero => exact fun _ _ s h => mourn_same h _
  | succ n ih =>
    intro p b s h
    unfold waitEventPid waitpidRaw
    by_cases hp : p ≠ 0
    · simp only [if_pos hp]
      cases hg : dictGet s.dict p with
      | none =>
        dsimp only
        unfold waitExcept
        rw [if_neg (by intro hx; cases hx)]
        exact mourn_same h _
      | some o => exact mourn_waitOne ih p b h _ _ _ (.inl ⟨rfl, hp⟩)
    · simp only [if_neg hp]
      exact mourn_waitOne ih p b h _ _ _ (.inr ⟨rfl, by simpa using hp⟩)

theorem mourn_poll {W : WaitPid} (hW : MournWait N W) : ∀ (pids : List Nat) (s : DSt), Mourned N s → Mourn N s (pollPids W pids s)
  | [], s, h => mourn_pure h none
  | p :: ps, s, h => by
    refine Mourn.bind (hW p false s h) fun e t ht _ => ?_
    cases e with
    | none => exact mourn_poll hW ps t ht
    | some ev => exact mourn_pure ht _

theorem mourn_waitAny (fuel : Nat) (b : Bool) : ∀ (n : Nat) (s : DSt), Mourned N s → Mourn N s (waitAny K fuel n b s)
  | 0, _, h => mourn_same h _
  | n + 1, s, h => by
    unfold waitAny
    split
    · exact mourn_same h _
    · exact mourn_waitEventPid fuel _ b s h
    · refine Mourn.bind (mourn_poll (mourn_waitEventPid fuel) _ s h) fun e t ht _ => ?_
      cases e with
      | some ev => exact mourn_pure ht _
      | none =>
        dsimp only
        split
        · exact Mourn.bind (mourn_sleep ht) fun _ u hu _ => mourn_waitAny fuel b n u hu
        · exact mourn_pure ht _

theorem mourn_waitEvent (fuel : Nat) (h : Mourned N s) (pid : Option Nat) (b : Bool) : Mourn N s (waitProcessEvent K fuel pid b s) := by
  cases pid with
  | some p => exact mourn_waitEventPid fuel p b s h
  | none => exact mourn_waitAny fuel b fuel s h

theorem mourn_waitSignals (fuel : Nat) (h : Mourned N s) (signals : List Nat) (pid : Option Nat) : Mourn N s (waitSignals K fuel signals pid s) :=
  Mourn.bind (mourn_waitEvent fuel h pid true) fun e _ ht _ => mourn_filterEvent ht signals e

theorem mourn_waitSyscall (fuel : Nat) (h : Mourned N s) (process : Option Nat) : Mourn N s (waitSyscall K fuel process s) :=
  mourn_waitSignals fuel h _ _

theorem mourn_waitExit (fuel : Nat) {o : Nat} : ∀ (n : Nat) (s : DSt), Mourned N s → Mourn N s (waitExit K fuel o n s)
  | 0, _, h => mourn_same h _
  | n + 1, s, h => by
    refine Mourn.bind (mourn_waitEventPid fuel _ true s h) fun e t ht _ => ?_
    split
    · exact mourn_pure ht ()
    · refine Mourn.bind ?_ fun _ u hu _ => mourn_waitExit fuel n u hu
      split
      · exact mourn_cont ht o _
      · exact mourn_cont ht o _
    · exact mourn_raise ht _
    · exact mourn_raise ht _

theorem mourn_terminate (fuel : Nat) (h : Mourned N s) (o : Nat) (wait : Bool) : Mourn N s (terminate K fuel o wait s) := by
  unfold terminate
  split
  · exact mourn_same h _
  · rename_i hx
    have hr : (s.heap o).running = true := by
      cases hr : (s.heap o).running with
      | true => rfl
      | false => simp [hr] at hx
    refine Mourn.bind ?_ fun done t ht _ => ?_
    · have hk : Mourn N s ((if (s.heap o).isStopped then procCont K o SIGKILL else procKill K o SIGKILL) s) := by
        split
        · exact mourn_cont h o _
        · exact mourn_kill h o _ fun _ => hr
      unfold terminateKill
      generalize (if (s.heap o).isStopped then procCont K o SIGKILL else procKill K o SIGKILL) s = x at hk
      obtain ⟨r, t⟩ := x
      cases r with
      | ok a => exact ⟨hk.inv, hk.after⟩
      | error e =>
        dsimp only
        split <;> exact ⟨hk.inv, hk.after⟩
    · split
      · exact mourn_pure ht _
      · refine Mourn.bind ?_ fun _ u hu _ => Mourn.bind (mourn_notRunning hu o) fun _ v hv _ => mourn_pure hv _
        split
        · exact mourn_pure ht _
        · exact mourn_waitExit fuel fuel t ht

theorem mourn_quitLoop (fuel : Nat) : ∀ (os : List Nat) (s : DSt), Mourned N s → Mourn N s (quitLoop K fuel os s)
  | [], _, h => mourn_pure h ()
  | o :: os, _, h => Mourn.bind (mourn_terminate fuel h o true) fun _ _ ht _ => Mourn.bind (mourn_detach ht o) fun _ u hu _ => mourn_quitLoop fuel os u hu

theorem mourn_quit (fuel : Nat) (h : Mourned N s) : Mourn N s (quit K fuel s) := mourn_quitLoop fuel _ s h

theorem mourn_void {m : Py DSt α} (h : Mourn N s (m s)) : Mourn N s (void m s) := Mourn.bind h fun _ _ ht _ => mourn_pure ht ()

theorem mourn_onObj {m : Py DSt α} (h : Mourned N s) (o : Nat) (hm : Mourn N s (m s)) : Mourn N s (onObj o m s) := by
  unfold onObj
  split
  · exact mourn_void hm
  · exact mourn_same h _

theorem mourn_runOp (fuel : Nat) (op : Op) (h : Mourned N s) (hop : ∀ o n, op = .kill o n → N n → (s.heap o).running = true) : Mourn N s (runOp K fuel op s) := by
  cases op with
  | addProcess pid a parent th => exact mourn_void (mourn_add (mourn_waitEventPid fuel) h pid a parent th)
  | deleteProcess o => exact mourn_onObj h o (⟨h.unreg o, .unreg _ _⟩ : Mourn N s (deleteProcess o s))
  | deletePid pid =>
    show Mourn N s (deletePid pid s)
    unfold deletePid
    split
    · exact ⟨h.unreg _, .unreg _ _⟩
    · exact mourn_same h _
  | quit => exact mourn_quit fuel h
  | waitProcessEvent pid b => exact mourn_void (mourn_waitEvent fuel h pid b)
  | waitSignals signals pid => exact mourn_void (mourn_waitSignals fuel h signals pid)
  | waitSyscall o =>
    cases o with
    | none => exact mourn_void (mourn_waitSyscall fuel h none)
    | some o => exact mourn_onObj h o (mourn_waitSyscall fuel h (some o))
  | traceFork => exact ⟨⟨h.dead, h.log, h.own, h.uniq, h.det⟩, .same (.same rfl rfl) rfl⟩
  | traceExec => exact ⟨⟨h.dead, h.log, h.own, h.uniq, h.det⟩, .same (.same rfl rfl) rfl⟩
  | traceClone => exact ⟨⟨h.dead, h.log, h.own, h.uniq, h.det⟩, .same (.same rfl rfl) rfl⟩
  | enableSysgood => exact ⟨⟨h.dead, h.log, h.own, h.uniq, h.det⟩, .same (.same rfl rfl) rfl⟩
  | attach o => exact mourn_onObj h o (mourn_attach h o)
  | detach o => exact mourn_onObj h o (mourn_detach h o)
  | cont o n => exact mourn_onObj h o (mourn_cont h o n)
  | syscall o n => exact mourn_onObj h o (mourn_syscall h o n)
  | singleStep o => exact mourn_onObj h o (mourn_singleStep h o)
  | kill o n => exact mourn_onObj h o (mourn_kill h o n (hop o n rfl))
  | setoptions o n => exact mourn_onObj h o (mourn_setoptions h o n)
  | terminate o wait => exact mourn_onObj h o (mourn_terminate fuel h o wait)
  | waitExit o => exact mourn_onObj h o (mourn_waitExit fuel fuel s h)
  | processTerminated o => exact mourn_onObj h o (mourn_terminated h o)

/-! ### strace.py -/

theorem mourn_updSys (h : Mourned N s) (o : Nat) (f : SysState → SysState) : Mourn N s (updSys o f s) := mourn_upd h o _ rfl rfl id

theorem mourn_sysEnter (h : Mourned N s) (C : SysCfg) (o : Nat) : Mourn N s (sysEnter K C o s) := by
  unfold sysEnter
  refine Mourn.bind (mourn_ptrace h (.inspect o (s.heap o).pid) (fun _ _ _ hx => nomatch hx) (fun _ _ _ hx => nomatch hx)) fun r t ht _ => ?_
  refine Mourn.bind (mourn_updSys ht o _) fun _ u hu _ => ?_
  refine Mourn.bind ?_ fun _ v hv _ => Mourn.bind (mourn_updSys hv o _) fun _ w hw _ => mourn_same hw _
  split
  · exact mourn_void (mourn_ptrace hu _ (fun _ _ _ hx => nomatch hx) (fun _ _ _ hx => nomatch hx))
  · exact mourn_updSys hu o _

theorem mourn_sysExit (fuel : Nat) (h : Mourned N s) (o : Nat) : Mourn N s (sysExit K fuel o s) := by
  unfold sysExit
  refine Mourn.bind ?_ fun _ t ht _ => Mourn.bind ?_ fun _ u hu _ =>
    Mourn.bind (mourn_updSys hu o _) fun _ v hv _ => mourn_pure hv _
  · unfold sysResult
    split
    · exact Mourn.bind (mourn_ptrace h _ (fun _ _ _ hx => nomatch hx) (fun _ _ _ hx => nomatch hx)) fun _ u hu _ => mourn_updSys hu o _
    · exact mourn_same h _
  · unfold sysExecTrap
    split
    · exact Mourn.bind (mourn_syscall ht o 0) fun _ u hu _ => mourn_void (mourn_waitSignals fuel hu _ _)
    · exact mourn_same ht _

theorem mourn_sysEvent (fuel : Nat) (h : Mourned N s) (C : SysCfg) (o : Nat) : Mourn N s (sysEvent K fuel C o s) := by
  unfold sysEvent
  split
  · exact mourn_sysExit fuel h o
  · exact mourn_sysEnter h C o

theorem mourn_prepare (h : Mourned N s) (o : Nat) : Mourn N s (prepareProcess K o s) :=
  Mourn.bind (mourn_syscall h o 0) fun _ _ ht _ => mourn_updSys ht o _

theorem mourn_exited (h : Mourned N s) (C : StraceCfg) (o : Nat) : Mourn N s (processExited K C o s) := by
  unfold processExited
  split
  · exact mourn_display h o
  · exact mourn_same h _

theorem mourn_handle (fuel : Nat) (h : Mourned N s) (C : StraceCfg) (r : Except Exc Event) (code : Nat) : Mourn N s (straceHandle K fuel C r code s) := by
  unfold straceHandle
  cases r with
  | ok ev =>
    refine Mourn.bind (Mourn.bind (mourn_sysEvent fuel h C.sys ev.proc) fun r t ht _ => ?_) fun _ u hu _ => mourn_pure hu _
    refine Mourn.bind ?_ fun _ u hu _ => mourn_syscall hu ev.proc 0
    split
    · exact mourn_display ht _
    · exact mourn_pure ht ()
  | error e =>
    cases e with
    | event ev =>
      cases ev with
      | exit o a b => exact Mourn.bind (mourn_exited h C o) fun _ t ht _ => mourn_pure ht _
      | signal o n =>
        exact Mourn.bind (mourn_display h o) fun _ t ht _ => Mourn.bind (mourn_syscall ht o _) fun _ u hu _ => mourn_pure hu _
      | newProcess q =>
        refine Mourn.bind (Mourn.bind (mourn_prepare h q) fun _ t ht _ => ?_) fun _ u hu _ => mourn_pure hu _
        split
        · exact mourn_syscall ht _ 0
        · exact mourn_same ht _
      | execution o => exact Mourn.bind (mourn_syscall h o 0) fun _ t ht _ => mourn_pure ht _
    | _ => exact mourn_same h _

theorem mourn_turn (fuel : Nat) (h : Mourned N s) (C : StraceCfg) (code : Nat) : Mourn N s (straceTurn K fuel C code s) := by
  have hw := mourn_waitSyscall (K := K) fuel h none
  exact (mourn_handle fuel hw.inv C _ code).base hw.after

theorem mourn_straceLoop (fuel : Nat) (C : StraceCfg) : ∀ (n code : Nat) (s : DSt), Mourned N s → Mourn N s (straceLoop K fuel C n code s)
  | 0, _, _, h => mourn_same h _
  | n + 1, code, s, h => by
    unfold straceLoop
    split
    · exact mourn_same h _
    · exact Mourn.bind (mourn_turn fuel h C code) fun c t ht _ => mourn_straceLoop fuel C n c t ht

theorem mourn_create (fuel : Nat) (h : Mourned N s) (pid : Nat) (a : Bool) : Mourn N s (createProcess K fuel pid a s) := by
  have ha := mourn_add (K := K) (mourn_waitEventPid (K := K) fuel) h pid a none false
  unfold createProcess
  split <;> rename_i e <;> rw [e] at ha <;> exact ⟨ha.inv, ha.after⟩

theorem mourn_straceRun (fuel : Nat) (h : Mourned N s) (C : StraceCfg) (pid : Nat) (a : Bool) : Mourn N s (straceRun K fuel C pid a s) := by
  refine Mourn.bind (mourn_create fuel h pid a) fun o t ht _ => ?_
  cases o with
  | none => exact mourn_pure ht _
  | some o =>
    exact Mourn.bind (Mourn.bind (mourn_prepare ht o) fun _ u hu _ => mourn_straceLoop fuel C fuel 0 u hu) fun _ u hu _ => mourn_pure hu _

theorem mourn_straceMain (fuel : Nat) (h : Mourned N s) (C : StraceCfg) (pid : Nat) (a : Bool) : Mourn N s (straceMain K fuel C pid a s) := by
  have hr := mourn_straceRun (K := K) fuel h C pid a
  unfold straceMain
  rcases hx : straceRun K fuel C pid a s with ⟨r, t⟩
  rw [hx] at hr
  refine Mourn.base (t := t) (Mourn.bind ?_ fun code u hu _ => Mourn.bind (mourn_quit fuel hu) fun _ v hv _ => mourn_pure hv _) hr.after
  have ht := hr.inv
  cases r with
  | ok code => exact mourn_pure ht _
  | error e =>
    show Mourn N t (straceExcept K C e t)
    unfold straceExcept
    split
    · exact Mourn.bind (mourn_exited ht C _) fun _ u hu _ => mourn_pure hu _
    · exact mourn_pure ht _
    · exact mourn_raise ht _
    · exact mourn_pure ht _

end

end PT
