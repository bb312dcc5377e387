import Verif.Lemmas.Debugger2
import Verif.Spec.Minds
import Verif.Model.GdbMain

/-! The debugger touches no other process. -/

namespace PT
open Spec

variable {α β : Type} {A : Nat → Prop} {R U : Prop} {K : Kern}

/-- The user asked for the process, or the kernel told of it. -/
def Heard (A : Nat → Prop) (log : List Entry) (p : Nat) : Prop := A p ∨ ∃ e ∈ log, born e = some p

theorem Heard.append {log : List Entry} {p : Nat} (h : Heard A log p) (g : List Entry) : Heard A (log ++ g) p :=
  h.imp id fun ⟨e, he, hb⟩ => ⟨e, List.mem_append.2 (.inl he), hb⟩

/-- What the debugger knows is told; `U`: the user may have given any parent. -/
structure Minded (A : Nat → Prop) (R U : Prop) (s : DSt) : Prop where
  log : Minds A R s.log
  obj : ∀ o, o < s.next → Heard A s.log (s.heap o).pid
  par : U ∨ ∀ o, o < s.next → ∀ p, (s.heap o).parent = some p → p < s.next
  dict : ∀ p o, (p, o) ∈ s.dict → Heard A s.log p ∧ o < s.next
  list : ∀ o ∈ s.list, o < s.next

theorem minds_snoc {log : List Entry} (h : Minds A R log) (e : Entry)
    (he : ∀ p, named e.call = some p → A p ∨ (attaches e.call = true → R) ∧ ∃ e' ∈ log, born e' = some p) : Minds A R (log ++ [e]) := by
  intro before x after hx p hp
  rcases List.append_eq_append_iff.1 hx with ⟨l, h1, h2⟩ | ⟨l, h1, h2⟩
  · cases l with
    | nil =>
      simp only [List.nil_append, List.cons.injEq] at h2
      rw [List.append_nil] at h1
      rw [← h2.1] at hp ⊢
      rw [h1]
      exact he p hp
    | cons y l =>
      have := congrArg List.length h2
      simp at this
  · cases l with
    | nil =>
      simp only [List.nil_append, List.cons.injEq] at h2
      rw [List.append_nil] at h1
      rw [h2.1] at hp ⊢
      rw [← h1]
      exact he p hp
    | cons y l =>
      simp only [List.cons_append, List.cons.injEq] at h2
      rw [← h2.1] at h1
      exact h before x l h1 p hp

theorem Minded.logCall {s : DSt} (h : Minded A R U s) (c : Call) (hc : ∀ p, named c = some p → Heard A s.log p)
    (ha : attaches c = true → R ∨ ∀ p, named c = some p → A p) : Minded A R U (logCall K c s) := by
  refine ⟨minds_snoc h.log _ fun p hp => ?_, fun o ho => (h.obj o ho).append _, h.par, fun p o hm => ⟨(h.dict p o hm).1.append _, (h.dict p o hm).2⟩,
    h.list⟩
  by_cases hr : attaches c = true
  · rcases ha hr with hR | hA
    · exact (hc p hp).imp id fun hb => ⟨fun _ => hR, hb⟩
    · exact .inl (hA p hp)
  · exact (hc p hp).imp id fun hb => ⟨fun hx => (hr hx).elim, hb⟩

theorem Minded.setProc {s : DSt} (h : Minded A R U s) (o : Nat) (q : Proc) (hp : q.pid = (s.heap o).pid) (hq : q.parent = (s.heap o).parent) :
    Minded A R U (setProc s o q) := by
  refine ⟨h.log, fun i hi => ?_, h.par.imp id fun hpar i hi p => ?_, h.dict, h.list⟩
  · rw [setProc_heap]
    split
    · rename_i e
      rw [hp, ← e]
      exact h.obj i hi
    · exact h.obj i hi
  · rw [setProc_heap]
    split
    · rename_i e
      rw [hq, ← e]
      exact hpar i hi p
    · exact hpar i hi p

theorem Minded.unreg {s : DSt} (h : Minded A R U s) (o : Nat) : Minded A R U (unreg o s) :=
  ⟨h.log, h.obj, h.par, fun p i hm => h.dict p i ((mem_dictDel _).1 hm).1, fun i hi => h.list i (List.mem_of_mem_erase hi)⟩

theorem Minded.add {s : DSt} (h : Minded A R U s) (pid : Nat) (hp : Heard A s.log pid) (a : Bool) (parent : Option Nat) (hpar : U ∨ ∀ p, parent = some p → p < s.next)
    (th : Bool) : Minded A R U { PT.setProc s s.next (freshProc pid a parent th) with
      next := s.next + 1, dict := dictSet s.dict pid s.next, list := s.list ++ [s.next] } := by
  refine ⟨h.log, fun i hi => ?_, ?_, fun p o hm => ?_, fun o ho => ?_⟩
  · show Heard A s.log (((PT.setProc s s.next (freshProc pid a parent th))).heap i).pid
    rw [setProc_heap]
    split
    · exact hp
    · rename_i hne
      exact h.obj i (Nat.lt_of_le_of_ne (Nat.le_of_lt_succ hi) hne)
  · rcases h.par with hU | hold
    · exact .inl hU
    rcases hpar with hU | hpar
    · exact .inl hU
    refine .inr fun i hi p => ?_
    show (((PT.setProc s s.next (freshProc pid a parent th))).heap i).parent = some p → p < s.next + 1
    rw [setProc_heap]
    split
    · intro hq
      exact Nat.lt_succ_of_lt (hpar p hq)
    · rename_i hne
      intro hq
      exact Nat.lt_succ_of_lt (hold i (Nat.lt_of_le_of_ne (Nat.le_of_lt_succ hi) hne) p hq)
  · have hm : (p, o) ∈ dictSet s.dict pid s.next := hm
    show Heard A s.log p ∧ o < s.next + 1
    rcases (mem_dictSet _).1 hm with he | ⟨_, hm⟩
    · rw [(Prod.mk.inj he).1, (Prod.mk.inj he).2]
      exact ⟨hp, Nat.lt_succ_self _⟩
    · exact ⟨(h.dict p o hm).1, Nat.lt_succ_of_lt (h.dict p o hm).2⟩
  · have ho : o ∈ s.list ++ [s.next] := ho
    show o < s.next + 1
    rcases List.mem_append.1 ho with ho | ho
    · exact Nat.lt_succ_of_lt (h.list o ho)
    · rw [List.mem_singleton.1 ho]
      exact Nat.lt_succ_self _

/-! ### results -/

/-- An exception that carries an event tells of a process object that exists. -/
def ExcOK (n : Nat) (e : Exc) : Prop := ∀ ev, e = .event ev → ev.proc < n

/-- A later state: no object and no call is forgotten. -/
structure Later (s t : DSt) : Prop where
  next : s.next ≤ t.next
  log : ∃ g, t.log = s.log ++ g

theorem Later.refl (s : DSt) : Later s s := ⟨Nat.le_refl _, [], (List.append_nil _).symm⟩
theorem Later.trans {s t u : DSt} (h : Later s t) (h2 : Later t u) : Later s u := by
  obtain ⟨g, hg⟩ := h.log
  obtain ⟨g2, hg2⟩ := h2.log
  exact ⟨Nat.le_trans h.next h2.next, g ++ g2, by rw [hg2, hg, List.append_assoc]⟩
theorem Later.lt {s t : DSt} (h : Later s t) {o : Nat} (ho : o < s.next) : o < t.next := Nat.lt_of_lt_of_le ho h.next
theorem Later.told {s t : DSt} (h : Later s t) {p : Nat} (hp : Heard A s.log p) : Heard A t.log p := by
  obtain ⟨g, hg⟩ := h.log
  rw [hg]
  exact hp.append g
theorem Later.same {s t : DSt} (hn : t.next = s.next) (hl : t.log = s.log) : Later s t := ⟨Nat.le_of_eq hn.symm, [], by rw [hl, List.append_nil]⟩
theorem Later.one {s t : DSt} {e : Entry} (hn : s.next ≤ t.next) (hl : t.log = s.log ++ [e]) : Later s t := ⟨hn, [e], hl⟩

/-- The result of some code keeps the invariant, forgets nothing, and its value or its exception is as said. -/
structure Tame {σ : Type} (I : σ → Prop) (pr : σ → DSt) (s : σ) (x : Except Exc α × σ) (Q : α → σ → Prop) : Prop where
  inv : I x.2
  later : Later (pr s) (pr x.2)
  val : ∀ a, x.1 = .ok a → Q a x.2
  exc : ∀ e, x.1 = .error e → ExcOK (pr x.2).next e

section
variable {σ : Type} {I : σ → Prop} {pr : σ → DSt} {s : σ} {Q : α → σ → Prop}

theorem Tame.ok {a : α} {t : σ} (hI : I t) (hn : Later (pr s) (pr t)) (hq : Q a t) : Tame I pr s (.ok a, t) Q :=
  ⟨hI, hn, fun b hb => by cases hb; exact hq, fun e he => by cases he⟩

theorem Tame.err {e : Exc} {t : σ} (hI : I t) (hn : Later (pr s) (pr t)) (he : ExcOK (pr t).next e) : Tame I pr s ((.error e : Except Exc α), t) Q :=
  ⟨hI, hn, fun b hb => (by cases hb), fun e' h => (by cases h; exact he)⟩

theorem Tame.bind {m : Py σ β} {f : β → Py σ α} {Q' : β → σ → Prop} (h : Tame I pr s (m s) Q')
    (hf : ∀ b t, I t → Later (pr s) (pr t) → Q' b t → Tame I pr t (f b t) Q) : Tame I pr s (Py.bind m f s) Q := by
  unfold Py.bind
  rcases hm : m s with ⟨r, t⟩
  rw [hm] at h
  cases r with
  | ok b =>
    have h2 := hf b t h.inv h.later (h.val b rfl)
    exact ⟨h2.inv, h.later.trans h2.later, h2.val, h2.exc⟩
  | error e => exact .err h.inv h.later (h.exc e rfl)

theorem Tame.weaken {x : Except Exc α × σ} {Q' : α → σ → Prop} (h : Tame I pr s x Q') (hq : ∀ a t, Q' a t → Q a t) : Tame I pr s x Q :=
  ⟨h.inv, h.later, fun a ha => hq a _ (h.val a ha), h.exc⟩

theorem Tame.base {x : Except Exc α × σ} {t : σ} (h : Tame I pr t x Q) (hn : Later (pr s) (pr t)) : Tame I pr s x Q :=
  ⟨h.inv, hn.trans h.later, h.val, h.exc⟩

end

theorem excOK_os (n e : Nat) : ExcOK n (.os e) := fun _ h => by cases h
theorem excOK_ptrace (n : Nat) (e : Option Nat) : ExcOK n (.ptrace e) := fun _ h => by cases h
theorem excOK_interrupt (n : Nat) : ExcOK n .interrupt := fun _ h => by cases h

/-- Results of the library. -/
abbrev DTame (A : Nat → Prop) (R U : Prop) (s : DSt) (x : Except Exc α × DSt) (Q : α → DSt → Prop) : Prop := Tame (Minded A R U) id s x Q

/-- Nothing is said of the value. -/
abbrev Any : α → DSt → Prop := fun _ _ => True

section
variable {s : DSt}

theorem tame_pure (h : Minded A R U s) (a : α) {Q : α → DSt → Prop} (hq : Q a s) : DTame A R U s (Py.pure a s) Q := .ok h (.refl _) hq

theorem tame_ptrace (h : Minded A R U s) (c : Call) (hc : ∀ p, named c = some p → Heard A s.log p)
    (ha : attaches c = true → R ∨ ∀ p, named c = some p → A p) : DTame A R U s (ptraceCall K c s) fun v t => t = logCall K c s ∧ ∃ st, K s.log c = .ok v st := by
  rw [ptraceCall_run]
  have hk := h.logCall (K := K) c hc ha
  cases hr : K s.log c with
  | ok v st => exact .ok hk (.one (Nat.le_refl _) rfl) ⟨rfl, st, rfl⟩
  | err e => exact .err hk (.one (Nat.le_refl _) rfl) (excOK_ptrace _ _)
  | interrupt => exact .err hk (.one (Nat.le_refl _) rfl) (excOK_interrupt _)

theorem tame_os (h : Minded A R U s) (c : Call) (hc : ∀ p, named c = some p → Heard A s.log p) (ha : attaches c = false) : DTame A R U s (osCall K c s) Any := by
  rw [osCall_run]
  have hk := h.logCall (K := K) c hc (fun hx => by rw [ha] at hx; cases hx)
  cases hr : K s.log c with
  | ok v st => exact .ok hk (.one (Nat.le_refl _) rfl) trivial
  | err e => exact .err hk (.one (Nat.le_refl _) rfl) (excOK_os _ _)
  | interrupt => exact .err hk (.one (Nat.le_refl _) rfl) (excOK_interrupt _)

/-- A request for a known object. -/
theorem tame_req (h : Minded A R U s) {o : Nat} (ho : o < s.next) (c : Call) (hc : named c = some (s.heap o).pid) (ha : attaches c = false) :
    DTame A R U s (ptraceCall K c s) Any :=
  (tame_ptrace h c (fun p hp => by rw [hc] at hp; cases hp; exact h.obj o ho) (fun hx => by rw [ha] at hx; cases hx)).weaken fun _ _ _ => trivial

theorem tame_upd (h : Minded A R U s) (o : Nat) (f : Proc → Proc) (hp : (f (s.heap o)).pid = (s.heap o).pid) (hq : (f (s.heap o)).parent = (s.heap o).parent) :
    DTame A R U s (updProc o f s) Any := .ok (h.setProc o _ hp hq) (.same rfl rfl) trivial

theorem tame_detach (h : Minded A R U s) {o : Nat} (ho : o < s.next) : DTame A R U s (detach K o s) Any := by
  have h1 := h.setProc o { s.heap o with isAttached := false } rfl rfl
  have h2 := h1.logCall (K := K) (.detach o (s.heap o).pid) (fun p hp => by cases hp; exact h.obj o ho) (fun hx => by cases hx)
  rcases detach_cases (K := K) o s with ⟨_, e⟩ | ⟨_, _, e⟩ | ⟨_, _, _, e⟩ | ⟨_, _, x, hx, e⟩ <;> rw [e]
  · exact .ok h (.refl _) trivial
  · exact .ok (h1.unreg o) (.same rfl rfl) trivial
  · exact .ok (h2.unreg o) (.one (Nat.le_refl _) rfl) trivial
  · refine .err h2 (.one (Nat.le_refl _) rfl) ?_
    cases hr : K s.log (.detach o (s.heap o).pid) with
    | ok v st => rw [hr] at hx; cases hx
    | err n => rw [hr] at hx; cases hx; exact excOK_ptrace _ _
    | interrupt => rw [hr] at hx; cases hx; exact excOK_interrupt _

theorem tame_notRunning (h : Minded A R U s) {o : Nat} (ho : o < s.next) : DTame A R U s (notRunning K o s) Any :=
  Tame.bind (tame_upd h o _ rfl rfl) fun _ _ ht hn _ => tame_detach ht (hn.lt ho)

theorem tame_cont (h : Minded A R U s) {o : Nat} (ho : o < s.next) (n : Nat) : DTame A R U s (procCont K o n s) Any :=
  Tame.bind (tame_req h ho _ rfl rfl) fun _ _ ht _ _ => tame_upd ht o _ rfl rfl

theorem tame_syscall (h : Minded A R U s) {o : Nat} (ho : o < s.next) (n : Nat) : DTame A R U s (procSyscall K o n s) Any :=
  Tame.bind (tame_req h ho _ rfl rfl) fun _ _ ht _ _ => tame_upd ht o _ rfl rfl

theorem tame_singleStep (h : Minded A R U s) {o : Nat} (ho : o < s.next) : DTame A R U s (procSingleStep K o s) Any :=
  Tame.bind (tame_req h ho _ rfl rfl) fun _ _ ht _ _ => tame_pure ht () trivial

theorem tame_kill (h : Minded A R U s) {o : Nat} (ho : o < s.next) (n : Nat) : DTame A R U s (procKill K o n s) Any :=
  Tame.bind (tame_os h _ (fun p hp => by cases hp; exact h.obj o ho) rfl) fun _ _ ht _ _ => tame_pure ht () trivial

theorem tame_setoptions (h : Minded A R U s) {o : Nat} (ho : o < s.next) (n : Nat) : DTame A R U s (procSetoptions K o n s) Any :=
  Tame.bind (tame_req h ho _ rfl rfl) fun _ _ ht _ _ => tame_pure ht () trivial

theorem tame_display (h : Minded A R U s) {o : Nat} (ho : o < s.next) : DTame A R U s (eventDisplay K o s) Any :=
  Tame.bind (tame_req h ho _ rfl rfl) fun _ _ ht _ _ => tame_pure ht () trivial

theorem tame_reattach (h : Minded A R U s) {o : Nat} (ho : o < s.next) (hR : R) : DTame A R U s (procAttach K o s) Any := by
  unfold procAttach
  split
  · exact tame_pure h () trivial
  · exact Tame.bind (tame_ptrace h _ (fun p hp => by cases hp; exact h.obj o ho) (fun _ => .inl hR)) fun _ _ ht _ _ => tame_upd ht o _ rfl rfl

theorem tame_terminated (h : Minded A R U s) {o : Nat} (ho : o < s.next) : DTame A R U s (processTerminated K o s) fun ev t => ev.proc < t.next :=
  Tame.bind (tame_notRunning h ho) fun _ _ ht hn _ => tame_pure ht _ (hn.lt ho)

/-- Code that waits for a process. -/
def TameWait (A : Nat → Prop) (R U : Prop) (W : WaitPid) : Prop := ∀ p b s, Minded A R U s → Heard A s.log p →
  DTame A R U s (W p b s) fun e t => ∀ ev, e = some ev → ev.proc < t.next

theorem tame_filterEvent (h : Minded A R U s) (signals : List Nat) (e : Option Event) (he : ∀ ev, e = some ev → ev.proc < s.next) :
    DTame A R U s (filterEvent signals e s) fun ev t => ev.proc < t.next := by
  unfold filterEvent
  split
  · split
    · exact tame_pure h _ (he _ rfl)
    · exact .err h (.refl _) fun ev hx => by cases hx; exact he _ rfl
  · exact .err h (.refl _) fun ev hx => by cases hx; exact he _ rfl
  · exact .err h (.refl _) fun ev hx => by cases hx

theorem tame_newProc (h : Minded A R U s) (pid : Nat) (hp : Heard A s.log pid) (a : Bool) (ha : a = false → A pid) (parent : Option Nat)
    (hpar : U ∨ ∀ p, parent = some p → p < s.next) (th : Bool) :
    DTame A R U s (Py.bind (newProc K pid a parent th) (fun o => Py.bind (register pid o) fun _ => Py.pure o) s) fun o t => o < t.next ∧ Heard A t.log pid := by
  cases a with
  | true => exact .ok (h.add pid hp true parent hpar th) ⟨Nat.le_succ _, [], (List.append_nil _).symm⟩ ⟨Nat.lt_succ_self _, hp⟩
  | false =>
    have hl := h.logCall (K := K) (.attach s.next pid) (fun p hx => by cases hx; exact hp) (fun _ => .inr fun p hx => by cases hx; exact ha rfl)
    have hrun := ptraceCall_run (K := K) (.attach s.next pid) s
    simp only [Py.bind, newProc, hrun, Bool.false_eq_true, if_false]
    cases hr : K s.log (.attach s.next pid) with
    | ok v st => exact .ok (hl.add pid (hp.append _) false parent hpar th) (.one (Nat.le_succ _) rfl) ⟨Nat.lt_succ_self _, hp.append _⟩
    | err e => exact .err hl (.one (Nat.le_refl _) rfl) (excOK_ptrace _ _)
    | interrupt => exact .err hl (.one (Nat.le_refl _) rfl) (excOK_interrupt _)

theorem tame_addExcept (h : Minded A R U s) {o : Nat} (ho : o < s.next) (e : Exc) (he : ExcOK s.next e) : DTame A R U s (addProcessExcept K o e s) Any := by
  unfold addProcessExcept
  split
  · exact tame_pure h () trivial
  · exact tame_display h (he _ rfl)
  · refine Tame.bind (tame_upd h o _ rfl rfl) fun _ t ht hn _ => Tame.bind (tame_detach ht (hn.lt ho)) fun _ u hu hn2 _ => ?_
    exact .err hu (.refl _) fun ev hx => (hn.trans hn2).lt (he ev hx)

theorem tame_addWait {W : WaitPid} (hW : TameWait A R U W) (h : Minded A R U s) {o pid : Nat} (ho : o < s.next) (hp : Heard A s.log pid) :
    DTame A R U s (addProcessWait K W o pid s) Any := by
  have hw : DTame A R U s (waitSignalsPid W [SIGTRAP, SIGSTOP] pid s) Any :=
    Tame.bind (hW pid true s h hp) fun e t ht _ hq => (tame_filterEvent ht _ e hq).weaken fun _ _ _ => trivial
  unfold addProcessWait
  split
  · rename_i e
    rw [e] at hw
    exact .ok hw.inv hw.later trivial
  · rename_i x t e
    rw [e] at hw
    exact (tame_addExcept hw.inv (hw.later.lt ho) x (hw.exc x rfl)).base hw.later

theorem tame_add {W : WaitPid} (hW : TameWait A R U W) (h : Minded A R U s) (pid : Nat) (hp : Heard A s.log pid) (a : Bool) (ha : a = false → A pid)
    (parent : Option Nat) (hpar : U ∨ ∀ p, parent = some p → p < s.next) (th : Bool) :
    DTame A R U s (addProcess K W pid a parent th s) fun o t => o < t.next := by
  unfold addProcess
  split
  · exact .err h (.refl _) fun ev hx => by cases hx
  · have hassoc : Py.bind (newProc K pid a parent th) (fun o =>
        Py.bind (register pid o) fun _ =>
        Py.bind (addProcessWait K W o pid) fun _ =>
        Py.bind (addProcessOptions K o) fun _ =>
        Py.pure o) =
      Py.bind (Py.bind (newProc K pid a parent th) (fun o =>
        Py.bind (register pid o) fun _ => Py.pure o)) fun o =>
        Py.bind (addProcessWait K W o pid) fun _ =>
        Py.bind (addProcessOptions K o) fun _ =>
        Py.pure o := by
      rw [py_bind_assoc]
      congr 1
    rw [hassoc]
    refine Tame.bind (tame_newProc h pid hp a ha parent hpar th) fun o t ht _ hq => ?_
    refine Tame.bind (tame_addWait hW ht hq.1 hq.2) fun _ u hu hn _ => ?_
    refine Tame.bind (Q' := Any) ?_ fun _ v hv hn2 _ => tame_pure hv o ((hn.trans hn2).lt hq.1)
    unfold addProcessOptions
    split
    · exact tame_setoptions hu (hn.lt hq.1) _
    · exact tame_pure hu () trivial

theorem tame_ptraceEvent {W : WaitPid} (hW : TameWait A R U W) (h : Minded A R U s) {o : Nat} (ho : o < s.next) (event : Int) :
    DTame A R U s (ptraceEvent K W o event s) fun ev t => ev.proc < t.next := by
  unfold ptraceEvent
  split
  · refine Tame.bind (tame_ptrace h _ (fun p hp => by cases hp; exact h.obj o ho) (fun hx => by cases hx)) fun p t ht hn hq => ?_
    obtain ⟨hlog, st, hst⟩ := hq
    refine Tame.bind (tame_add hW ht p (.inr ⟨⟨.geteventmsg o (s.heap o).pid, .ok p st, s.dict⟩, ?_, rfl⟩) true (fun hx => by cases hx) (some o)
      (.inr fun q hq => by cases hq; exact hn.lt ho) _) fun q u hu _ hq => tame_pure hu _ hq
    rw [hlog]
    show _ ∈ s.log ++ _
    rw [hst]
    simp
  · split
    · exact .ok h (.refl _) ho
    · exact .err h (.refl _) (excOK_ptrace _ _)

theorem tame_status {W : WaitPid} (hW : TameWait A R U W) (h : Minded A R U s) {o : Nat} (ho : o < s.next) (status : Int) :
    DTame A R U s (processStatus K W o status s) fun ev t => ev.proc < t.next := by
  unfold processStatus
  cases classify true status
  · exact Tame.bind (tame_notRunning h ho) fun _ _ ht hn _ => tame_pure ht _ (hn.lt ho)
  · exact Tame.bind (tame_notRunning h ho) fun _ _ ht hn _ => tame_pure ht _ (hn.lt ho)
  · exact .err h (.refl _) (excOK_ptrace _ _)
  · exact tame_ptraceEvent hW h ho _
  · exact Tame.bind (tame_upd h o _ rfl rfl) fun _ _ ht hn _ => tame_pure ht _ (hn.lt ho)

theorem tame_checkPid (h : Minded A R U s) (wanted : Nat) (b : Bool) (r : Nat × Int) : DTame A R U s (checkPid wanted b r s) Any := by
  unfold checkPid
  split
  · exact .err h (.refl _) (excOK_ptrace _ _)
  · exact tame_pure h _ trivial

theorem tame_waitpid (h : Minded A R U s) (wanted : Nat) (hp : Heard A s.log wanted) (b : Bool) : DTame A R U s (waitpidRaw K wanted b s) Any := by
  unfold waitpidRaw
  split
  · split
    · exact .err h (.refl _) (excOK_ptrace _ _)
    · exact Tame.bind (tame_os h _ (fun p hx => by cases hx; exact hp) rfl) fun r _ ht _ _ => tame_checkPid ht _ _ _
  · rename_i h0
    have h0 : wanted = 0 := by omega
    rw [h0] at hp ⊢
    exact Tame.bind (tame_os h _ (fun p hx => by cases hx; exact hp) rfl) fun r _ ht _ _ => tame_checkPid ht _ _ _

theorem dictGet_known (h : Minded A R U s) {p o : Nat} (hg : dictGet s.dict p = some o) : o < s.next := (h.dict p o (dictGet_some hg)).2

theorem tame_waitEventPid (n : Nat) : TameWait A R U (waitEventPid K n) := by
  induction n with
  | zero => exact fun _ _ s h _ => .err h (.refl _) fun ev hx => by cases hx
  | succ n ih =>
    intro p b s h hp
    have hw := tame_waitpid (K := K) h p hp b
    unfold waitEventPid
    split
    · rename_i r t e
      rw [e] at hw
      refine Tame.base (t := t) ?_ hw.later
      unfold waitReply
      split
      · exact .ok hw.inv (.refl _) fun ev hx => by cases hx
      · split
        · rename_i o ho
          exact Tame.bind (tame_status ih hw.inv (dictGet_known hw.inv ho) _) fun ev u hu _ hq => tame_pure hu _ fun ev' hx => by cases hx; exact hq
        · exact ih p b t hw.inv (hw.later.told hp)
    · rename_i x t e
      rw [e] at hw
      refine Tame.base (t := t) ?_ hw.later
      unfold waitExcept
      split
      · split
        · rename_i o ho
          exact Tame.bind (tame_terminated hw.inv (dictGet_known hw.inv ho)) fun ev u hu _ hq => tame_pure hu _ fun ev' hx => by cases hx; exact hq
        · exact .err hw.inv (.refl _) fun ev hx => by cases hx
      · exact .err hw.inv (.refl _) (hw.exc x rfl)

theorem tame_poll {W : WaitPid} (hW : TameWait A R U W) : ∀ (pids : List Nat) (s : DSt), Minded A R U s → (∀ p ∈ pids, Heard A s.log p) →
    DTame A R U s (pollPids W pids s) fun e t => ∀ ev, e = some ev → ev.proc < t.next
  | [], s, h, _ => tame_pure h none fun ev hx => by cases hx
  | p :: ps, s, h, hp => by
    refine Tame.bind (hW p false s h (hp p List.mem_cons_self)) fun e t ht hn hq => ?_
    cases e with
    | none => exact tame_poll hW ps t ht fun q hq => hn.told (hp q (List.mem_cons_of_mem _ hq))
    | some ev => exact tame_pure ht _ hq

theorem keys_told (h : Minded A R U s) : ∀ p ∈ s.dict.map Prod.fst, Heard A s.log p := by
  intro p hp
  obtain ⟨⟨q, o⟩, hm, rfl⟩ := List.mem_map.1 hp
  exact (h.dict q o hm).1

theorem tame_waitAny (fuel : Nat) (b : Bool) : ∀ (n : Nat) (s : DSt), Minded A R U s →
    DTame A R U s (waitAny K fuel n b s) fun e t => ∀ ev, e = some ev → ev.proc < t.next
  | 0, s, h => .err h (.refl _) fun ev hx => by cases hx
  | n + 1, s, h => by
    have hk := keys_told h
    unfold waitAny
    split
    · exact .err h (.refl _) fun ev hx => by cases hx
    · rename_i pid hpid
      exact tame_waitEventPid fuel pid b s h (hk pid (by rw [hpid]; exact List.mem_cons_self))
    · refine Tame.bind (tame_poll (tame_waitEventPid fuel) _ s h hk) fun e t ht _ hq => ?_
      cases e with
      | some ev => exact tame_pure ht _ hq
      | none =>
        dsimp only
        split
        · exact Tame.bind (tame_os ht .sleep (fun p hx => by cases hx) rfl) fun _ u hu _ _ => tame_waitAny fuel b n u hu
        · exact tame_pure ht _ hq

theorem tame_waitEvent (fuel : Nat) (h : Minded A R U s) (pid : Option Nat) (hp : ∀ p, pid = some p → Heard A s.log p) (b : Bool) :
    DTame A R U s (waitProcessEvent K fuel pid b s) fun e t => ∀ ev, e = some ev → ev.proc < t.next := by
  cases pid with
  | some p => exact tame_waitEventPid fuel p b s h (hp p rfl)
  | none => exact tame_waitAny fuel b fuel s h

theorem tame_waitSignals (fuel : Nat) (h : Minded A R U s) (signals : List Nat) (pid : Option Nat) (hp : ∀ p, pid = some p → Heard A s.log p) :
    DTame A R U s (waitSignals K fuel signals pid s) fun ev t => ev.proc < t.next :=
  Tame.bind (tame_waitEvent fuel h pid hp true) fun e _ ht _ hq => tame_filterEvent ht signals e hq

theorem tame_waitSyscall (fuel : Nat) (h : Minded A R U s) (process : Option Nat) (hp : ∀ o, process = some o → o < s.next) :
    DTame A R U s (waitSyscall K fuel process s) fun ev t => ev.proc < t.next := by
  refine tame_waitSignals fuel h _ _ fun p hx => ?_
  cases process with
  | none => cases hx
  | some o => cases hx; exact h.obj o (hp o rfl)

theorem tame_waitExit (fuel : Nat) {o : Nat} : ∀ (n : Nat) (s : DSt), Minded A R U s → o < s.next → DTame A R U s (waitExit K fuel o n s) Any
  | 0, s, h, _ => .err h (.refl _) fun ev hx => by cases hx
  | n + 1, s, h, ho => by
    refine Tame.bind (tame_waitEventPid fuel _ true s h (h.obj o ho)) fun e t ht hn hq => ?_
    split
    · exact tame_pure ht () trivial
    · refine Tame.bind (Q' := Any) ?_ fun _ u hu hn2 _ => tame_waitExit fuel n u hu ((hn.trans hn2).lt ho)
      split
      · exact tame_cont ht (hn.lt ho) _
      · exact tame_cont ht (hn.lt ho) _
    · exact .err ht (.refl _) fun ev hx => by cases hx; exact hq _ rfl
    · exact .err ht (.refl _) fun ev hx => by cases hx

theorem tame_terminate (fuel : Nat) (h : Minded A R U s) {o : Nat} (ho : o < s.next) (wait : Bool) : DTame A R U s (terminate K fuel o wait s) Any := by
  unfold terminate
  split
  · exact tame_pure h _ trivial
  · refine Tame.bind (Q' := Any) ?_ fun done t ht hn _ => ?_
    · unfold terminateKill
      have hk : DTame A R U s ((if (s.heap o).isStopped then procCont K o SIGKILL else procKill K o SIGKILL) s) Any := by
        split
        · exact tame_cont h ho _
        · exact tame_kill h ho _
      split
      · rename_i e
        rw [e] at hk
        exact .ok hk.inv hk.later trivial
      · rename_i x t e
        rw [e] at hk
        split
        · exact .ok hk.inv hk.later trivial
        · exact .err hk.inv hk.later (hk.exc x rfl)
    · split
      · exact tame_pure ht _ trivial
      · refine Tame.bind (Q' := Any) ?_ fun _ u hu hn2 _ =>
          Tame.bind (tame_notRunning hu ((hn.trans hn2).lt ho)) fun _ v hv _ _ => tame_pure hv _ trivial
        split
        · exact tame_pure ht _ trivial
        · exact tame_waitExit fuel fuel t ht (hn.lt ho)

theorem tame_quitLoop (fuel : Nat) : ∀ (os : List Nat) (s : DSt), Minded A R U s → (∀ o ∈ os, o < s.next) → DTame A R U s (quitLoop K fuel os s) Any
  | [], _, h, _ => tame_pure h () trivial
  | o :: os, _, h, ho =>
    Tame.bind (tame_terminate fuel h (ho o List.mem_cons_self) true) fun _ _ ht hn _ =>
    Tame.bind (tame_detach ht (hn.lt (ho o List.mem_cons_self))) fun _ u hu hn2 _ =>
    tame_quitLoop fuel os u hu fun q hq => (hn.trans hn2).lt (ho q (List.mem_cons_of_mem _ hq))

theorem tame_quit (fuel : Nat) (h : Minded A R U s) : DTame A R U s (quit K fuel s) Any :=
  tame_quitLoop fuel _ s h fun o ho => h.list o (List.mem_reverse.1 ho)

/-! ### strace.py -/

theorem tame_updSys (h : Minded A R U s) (o : Nat) (f : SysState → SysState) : DTame A R U s (updSys o f s) Any := tame_upd h o _ rfl rfl

theorem tame_void {m : Py DSt α} {Q : α → DSt → Prop} (h : DTame A R U s (m s) Q) : DTame A R U s (void m s) Any :=
  Tame.bind h fun _ _ ht _ _ => tame_pure ht () trivial

theorem tame_sysEnter (h : Minded A R U s) (C : SysCfg) {o : Nat} (ho : o < s.next) : DTame A R U s (sysEnter K C o s) Any := by
  unfold sysEnter
  refine Tame.bind (tame_ptrace h (.inspect o (s.heap o).pid) (fun p hp => by cases hp; exact h.obj o ho) (fun hx => by cases hx)) fun r t ht hn _ => ?_
  refine Tame.bind (tame_updSys ht o _) fun _ u hu hn2 _ => ?_
  refine Tame.bind (Q' := Any) ?_ fun _ v hv _ _ => Tame.bind (tame_updSys hv o _) fun _ w hw _ _ => .ok hw (.refl _) trivial
  split
  · refine tame_void (tame_ptrace hu (.inspect o (s.heap o).pid) (fun p hp => ?_) (fun hx => by cases hx))
    cases hp
    exact (hn.trans hn2).told (h.obj o ho)
  · exact tame_updSys hu o _

theorem tame_sysExit (fuel : Nat) (h : Minded A R U s) {o : Nat} (ho : o < s.next) : DTame A R U s (sysExit K fuel o s) Any := by
  unfold sysExit
  refine Tame.bind (Q' := Any) ?_ fun _ t ht hn _ => Tame.bind (Q' := Any) ?_ fun _ u hu _ _ =>
    Tame.bind (tame_updSys hu o _) fun _ v hv _ _ => tame_pure hv _ trivial
  · unfold sysResult
    split
    · exact Tame.bind (tame_req h ho _ rfl rfl) fun _ u hu _ _ => tame_updSys hu o _
    · exact tame_pure h () trivial
  · unfold sysExecTrap
    split
    · refine Tame.bind (tame_syscall ht (hn.lt ho) 0) fun _ u hu hn2 _ => tame_void (tame_waitSignals fuel hu _ _ fun p hx => ?_)
      cases hx
      exact hn2.told (ht.obj o (hn.lt ho))
    · exact tame_pure ht () trivial

theorem tame_sysEvent (fuel : Nat) (h : Minded A R U s) (C : SysCfg) {o : Nat} (ho : o < s.next) : DTame A R U s (sysEvent K fuel C o s) Any := by
  unfold sysEvent
  split
  · exact tame_sysExit fuel h ho
  · exact tame_sysEnter h C ho

theorem tame_prepare (h : Minded A R U s) {o : Nat} (ho : o < s.next) : DTame A R U s (prepareProcess K o s) Any :=
  Tame.bind (tame_syscall h ho 0) fun _ _ ht _ _ => tame_updSys ht o _

theorem tame_exited (h : Minded A R U s) (C : StraceCfg) {o : Nat} (ho : o < s.next) : DTame A R U s (processExited K C o s) Any := by
  unfold processExited
  split
  · exact tame_display h ho
  · exact tame_pure h () trivial

theorem tame_handle (hU : ¬ U) (fuel : Nat) (h : Minded A R U s) (C : StraceCfg) (r : Except Exc Event) (hr : ∀ ev, r = .ok ev → ev.proc < s.next)
    (he : ∀ e, r = .error e → ExcOK s.next e) (code : Nat) : DTame A R U s (straceHandle K fuel C r code s) Any := by
  unfold straceHandle
  cases r with
  | ok ev =>
    have ho := hr ev rfl
    refine Tame.bind (Q' := Any) (Tame.bind (tame_sysEvent fuel h C.sys ho) fun r t ht hn _ => ?_) fun _ u hu _ _ => tame_pure hu _ trivial
    refine Tame.bind (Q' := Any) ?_ fun _ u hu hn2 _ => tame_syscall hu ((hn.trans hn2).lt ho) 0
    split
    · exact tame_display ht (hn.lt ho)
    · exact tame_pure ht () trivial
  | error e =>
    have he := he e rfl
    cases e with
    | event ev =>
      have ho : ev.proc < s.next := he ev rfl
      cases ev with
      | exit o a b => exact Tame.bind (tame_exited h C ho) fun _ t ht _ _ => tame_pure ht _ trivial
      | signal o n =>
        exact Tame.bind (tame_display h ho) fun _ t ht hn _ => Tame.bind (tame_syscall ht (hn.lt ho) _) fun _ u hu _ _ => tame_pure hu _ trivial
      | newProcess q =>
        refine Tame.bind (Q' := Any) (Tame.bind (tame_prepare h ho) fun _ t ht hn _ => ?_) fun _ u hu _ _ => tame_pure hu _ trivial
        split
        · rename_i p hp
          exact tame_syscall ht (ht.par.resolve_left hU _ (hn.lt ho) p hp) 0
        · exact .err ht (.refl _) fun ev hx => by cases hx
      | execution o => exact Tame.bind (tame_syscall h ho 0) fun _ t ht _ _ => tame_pure ht _ trivial
    | _ => exact .err h (.refl _) he

theorem tame_turn (hU : ¬ U) (fuel : Nat) (h : Minded A R U s) (C : StraceCfg) (code : Nat) : DTame A R U s (straceTurn K fuel C code s) Any := by
  have hw := tame_waitSyscall (K := K) fuel h none (fun _ hx => by cases hx)
  exact (tame_handle hU fuel hw.inv C _ hw.val hw.exc code).base hw.later

theorem tame_straceLoop (hU : ¬ U) (fuel : Nat) (C : StraceCfg) : ∀ (n code : Nat) (s : DSt), Minded A R U s → DTame A R U s (straceLoop K fuel C n code s) Any
  | 0, _, s, h => .err h (.refl _) fun ev hx => by cases hx
  | n + 1, code, s, h => by
    unfold straceLoop
    split
    · exact tame_pure h _ trivial
    · exact Tame.bind (tame_turn hU fuel h C code) fun c t ht _ _ => tame_straceLoop hU fuel C n c t ht

theorem tame_create (fuel : Nat) (h : Minded A R U s) (pid : Nat) (hp : A pid) (a : Bool) :
    DTame A R U s (createProcess K fuel pid a s) fun o t => ∀ i, o = some i → i < t.next := by
  have ha := tame_add (K := K) (tame_waitEventPid (K := K) fuel) h pid (.inl hp) a (fun _ => hp) none (.inr fun _ hx => by cases hx) false
  unfold createProcess
  split <;> rename_i e <;> rw [e] at ha
  · exact .ok ha.inv ha.later fun i hi => by cases hi; exact ha.val _ rfl
  · exact .ok ha.inv ha.later fun i hi => by cases hi
  · exact .ok ha.inv ha.later fun i hi => by cases hi
  · exact .err ha.inv ha.later (ha.exc _ rfl)

theorem tame_straceRun (hU : ¬ U) (fuel : Nat) (h : Minded A R U s) (C : StraceCfg) (pid : Nat) (hp : A pid) (a : Bool) :
    DTame A R U s (straceRun K fuel C pid a s) Any := by
  refine Tame.bind (tame_create fuel h pid hp a) fun o t ht _ hq => ?_
  cases o with
  | none => exact tame_pure ht _ trivial
  | some o =>
    exact Tame.bind (Q' := Any) (Tame.bind (tame_prepare ht (hq o rfl)) fun _ u hu _ _ => tame_straceLoop hU fuel C fuel 0 u hu) fun _ u hu _ _ =>
      tame_pure hu _ trivial

theorem tame_straceMain (hU : ¬ U) (fuel : Nat) (h : Minded A R U s) (C : StraceCfg) (pid : Nat) (hp : A pid) (a : Bool) :
    DTame A R U s (straceMain K fuel C pid a s) Any := by
  have hr := tame_straceRun (K := K) hU fuel h C pid hp a
  unfold straceMain
  rcases hx : straceRun K fuel C pid a s with ⟨r, t⟩
  rw [hx] at hr
  refine Tame.base (t := t) (Tame.bind (Q' := Any) ?_ fun code u hu _ _ => Tame.bind (tame_quit fuel hu) fun _ v hv _ _ => tame_pure hv _ trivial) hr.later
  have ht := hr.inv
  cases r with
  | ok code => exact tame_pure ht _ trivial
  | error e =>
    have he := hr.exc e rfl
    show DTame A R U t (straceExcept K C e t) Any
    unfold straceExcept
    split
    · exact Tame.bind (tame_exited ht C (he _ rfl)) fun _ u hu _ _ => tame_pure hu _ trivial
    · exact tame_pure ht _ trivial
    · exact .err ht (.refl _) fun ev hx => by cases hx
    · exact tame_pure ht _ trivial

/-! ### the library -/

theorem tame_onObj {m : Py DSt α} {Q : α → DSt → Prop} (h : Minded A R U s) (o : Nat) (hm : o < s.next → DTame A R U s (m s) Q) : DTame A R U s (onObj o m s) Any := by
  unfold onObj
  split
  · rename_i ho
    exact tame_void (hm ho)
  · exact tame_pure h () trivial

theorem tame_runOp (fuel : Nat) (op : Op) (h : Minded A R U s) (hn : ∀ p, UserNames p op → A p) (hR : ∀ o, op = .attach o → R)
    (hpar : U) : DTame A R U s (runOp K fuel op s) Any := by
  cases op with
  | addProcess pid a parent th =>
    exact tame_void (tame_add (tame_waitEventPid fuel) h pid (.inl (hn pid rfl)) a (fun _ => hn pid rfl) parent (.inl hpar) th)
  | deleteProcess o => exact tame_onObj h o fun _ => (.ok (h.unreg o) (.same rfl rfl) trivial : DTame A R U s (deleteProcess o s) Any)
  | deletePid pid =>
    show DTame A R U s (deletePid pid s) Any
    unfold deletePid
    split
    · exact .ok (h.unreg _) (.same rfl rfl) trivial
    · exact tame_pure h () trivial
  | quit => exact tame_quit fuel h
  | waitProcessEvent pid b => exact tame_void (tame_waitEvent fuel h pid (fun p hp => .inl (hn p hp)) b)
  | waitSignals signals pid => exact tame_void (tame_waitSignals fuel h signals pid (fun p hp => .inl (hn p hp)))
  | waitSyscall o =>
    cases o with
    | none => exact tame_void (tame_waitSyscall fuel h none (fun _ hx => by cases hx))
    | some o => exact tame_onObj h o fun ho => tame_waitSyscall fuel h (some o) (fun _ hx => by cases hx; exact ho)
  | traceFork => exact .ok ⟨h.log, h.obj, h.par, h.dict, h.list⟩ (.same rfl rfl) trivial
  | traceExec => exact .ok ⟨h.log, h.obj, h.par, h.dict, h.list⟩ (.same rfl rfl) trivial
  | traceClone => exact .ok ⟨h.log, h.obj, h.par, h.dict, h.list⟩ (.same rfl rfl) trivial
  | enableSysgood => exact .ok ⟨h.log, h.obj, h.par, h.dict, h.list⟩ (.same rfl rfl) trivial
  | attach o => exact tame_onObj h o fun ho => tame_reattach h ho (hR o rfl)
  | detach o => exact tame_onObj h o fun ho => tame_detach h ho
  | cont o n => exact tame_onObj h o fun ho => tame_cont h ho n
  | syscall o n => exact tame_onObj h o fun ho => tame_syscall h ho n
  | singleStep o => exact tame_onObj h o fun ho => tame_singleStep h ho
  | kill o n => exact tame_onObj h o fun ho => tame_kill h ho n
  | setoptions o n => exact tame_onObj h o fun ho => tame_setoptions h ho n
  | terminate o wait => exact tame_onObj h o fun ho => tame_terminate fuel h ho wait
  | waitExit o => exact tame_onObj h o fun ho => tame_waitExit fuel fuel s h ho
  | processTerminated o => exact tame_onObj h o fun ho => tame_terminated h ho

end

end PT
