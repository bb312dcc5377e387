import Verif.Lemmas.Minds
import Verif.Lemmas.Debugger4
import Verif.Spec.Ends

/-! A process is taken for ended only on the word of the kernel. -/

namespace PT
open Spec

variable {α β : Type} {T : Nat → Prop} {K : Kern}

/-- The end of object `o` is told, or the user said so, or it has the number 0. -/
def Allowed (T : Nat → Prop) (s : DSt) (o : Nat) : Prop := (s.heap o).pid = 0 ∨ T o ∨ EndTold s.log o (s.heap o).pid

/-- No object is taken for ended without being allowed; a number belongs to the last object that got it. -/
structure Vouched (T : Nat → Prop) (s : DSt) : Prop where
  over : ∀ o, o < s.next → (s.heap o).running = false → Allowed T s o
  dict : ∀ p o, (p, o) ∈ s.dict → ∀ i, i < s.next → (s.heap i).pid = p → i ≤ o
  own : ∀ p o, (p, o) ∈ s.dict → (s.heap o).pid = p ∧ o < s.next
  list : ∀ o ∈ s.list, o < s.next

theorem EndTold.append {log : List Entry} {o p : Nat} (h : EndTold log o p) (g : List Entry) : EndTold (log ++ g) o p := by
  obtain ⟨e, he, hx⟩ := h
  exact ⟨e, List.mem_append.2 (.inl he), hx⟩

theorem Vouched.logCall {s : DSt} (h : Vouched T s) (c : Call) : Vouched T (logCall K c s) :=
  ⟨fun o ho hr => (h.over o ho hr).imp id (Or.imp id fun x => EndTold.append x _), h.dict, h.own, h.list⟩

theorem Vouched.setProc {s : DSt} (h : Vouched T s) (o : Nat) (q : Proc) (hp : q.pid = (s.heap o).pid)
    (hq : q.running = (s.heap o).running ∨ (o < s.next → Allowed T s o)) : Vouched T (setProc s o q) := by
  refine ⟨fun i hi => ?_, fun p o' hm i hi hx => ?_, fun p o' hm => ⟨?_, (h.own p o' hm).2⟩, h.list⟩
  · unfold Allowed
    rw [setProc_heap]
    split
    · rename_i e
      intro hr
      show q.pid = 0 ∨ T i ∨ EndTold s.log i q.pid
      rw [hp, e]
      rcases hq with hq | hq
      · exact h.over o (e ▸ hi) (by rw [← hq]; exact hr)
      · exact hq (e ▸ hi)
    · exact h.over i hi
  · refine h.dict p o' hm i hi ?_
    rw [setProc_heap] at hx
    split at hx
    · rename_i e
      rw [e, ← hp]
      exact hx
    · exact hx
  · rw [setProc_heap]
    split
    · rename_i e
      rw [hp, ← e]
      exact (h.own p o' hm).1
    · exact (h.own p o' hm).1

theorem Vouched.unreg {s : DSt} (h : Vouched T s) (o : Nat) : Vouched T (unreg o s) :=
  ⟨h.over, fun p i hm => h.dict p i ((mem_dictDel _).1 hm).1, fun p i hm => h.own p i ((mem_dictDel _).1 hm).1, fun i hi => h.list i (List.mem_of_mem_erase hi)⟩

theorem Vouched.add {s : DSt} (h : Vouched T s) (pid : Nat) (a : Bool) (parent : Option Nat) (th : Bool) :
    Vouched T { PT.setProc s s.next (freshProc pid a parent th) with
      next := s.next + 1, dict := dictSet s.dict pid s.next, list := s.list ++ [s.next] } := by
  refine ⟨fun i hi => ?_, fun p o hm i hi hx => ?_, fun p o hm => ?_, fun o ho => ?_⟩
  · show (((PT.setProc s s.next (freshProc pid a parent th))).heap i).running = false →
      (((PT.setProc s s.next (freshProc pid a parent th))).heap i).pid = 0 ∨ T i ∨ EndTold s.log i (((PT.setProc s s.next (freshProc pid a parent th))).heap i).pid
    rw [setProc_heap]
    split
    · intro hr
      cases hr
    · rename_i hne
      exact h.over i (Nat.lt_of_le_of_ne (Nat.le_of_lt_succ hi) hne)
  · have hm : (p, o) ∈ dictSet s.dict pid s.next := hm
    have hi : i < s.next + 1 := hi
    have hx : (((PT.setProc s s.next (freshProc pid a parent th))).heap i).pid = p := hx
    rcases (mem_dictSet _).1 hm with he | ⟨hne, hm⟩
    · rw [(Prod.mk.inj he).2]
      exact Nat.le_of_lt_succ hi
    · rw [setProc_heap] at hx
      split at hx
      · exact (hne hx.symm).elim
      · rename_i hni
        exact h.dict p o hm i (Nat.lt_of_le_of_ne (Nat.le_of_lt_succ hi) hni) hx
  · have hm : (p, o) ∈ dictSet s.dict pid s.next := hm
    show (((PT.setProc s s.next (freshProc pid a parent th))).heap o).pid = p ∧ o < s.next + 1
    rw [setProc_heap]
    rcases (mem_dictSet _).1 hm with he | ⟨hne, hm⟩
    · rw [(Prod.mk.inj he).2, if_pos rfl]
      exact ⟨(Prod.mk.inj he).1.symm, Nat.lt_succ_self _⟩
    · rw [if_neg (Nat.ne_of_lt (h.own p o hm).2)]
      exact ⟨(h.own p o hm).1, Nat.lt_succ_of_lt (h.own p o hm).2⟩
  · have ho : o ∈ s.list ++ [s.next] := ho
    show o < s.next + 1
    rcases List.mem_append.1 ho with ho | ho
    · exact Nat.lt_succ_of_lt (h.list o ho)
    · rw [List.mem_singleton.1 ho]
      exact Nat.lt_succ_self _

/-- A later state: no object and no call is forgotten, objects keep their numbers and origins, and none comes back to life. -/
structure After (s t : DSt) : Prop where
  later : Later s t
  pid : ∀ o, o < s.next → (t.heap o).pid = (s.heap o).pid
  was : ∀ o, o < s.next → (t.heap o).wasAttached = (s.heap o).wasAttached
  dead : ∀ o, o < s.next → (s.heap o).running = false → (t.heap o).running = false

theorem After.refl (s : DSt) : After s s := ⟨.refl s, fun _ _ => rfl, fun _ _ => rfl, fun _ _ => id⟩
theorem After.trans {s t u : DSt} (h : After s t) (h2 : After t u) : After s u :=
  ⟨h.later.trans h2.later, fun o ho => (h2.pid o (h.later.lt ho)).trans (h.pid o ho), fun o ho => (h2.was o (h.later.lt ho)).trans (h.was o ho),
    fun o ho hr => h2.dead o (h.later.lt ho) (h.dead o ho hr)⟩
theorem After.same {s t : DSt} (hl : Later s t) (hh : t.heap = s.heap) : After s t :=
  ⟨hl, fun _ _ => by rw [hh], fun _ _ => by rw [hh], fun _ _ => by rw [hh]; exact id⟩
theorem After.allowed {s t : DSt} (h : After s t) {o : Nat} (ho : o < s.next) (hx : Allowed T s o) : Allowed T t o := by
  unfold Allowed
  rw [h.pid o ho]
  obtain ⟨g, hg⟩ := h.later.log
  rw [hg]
  exact hx.imp id (Or.imp id fun x => EndTold.append x g)
theorem After.one {s : DSt} (c : Call) : After s (logCall K c s) := .same (.one (Nat.le_refl _) rfl) rfl
theorem After.unreg (s : DSt) (o : Nat) : After s (unreg o s) := .same (.same rfl rfl) rfl
theorem After.setProc (s : DSt) (o : Nat) (q : Proc) (hp : q.pid = (s.heap o).pid) (hw : q.wasAttached = (s.heap o).wasAttached)
    (hr : (s.heap o).running = false → q.running = false) : After s (setProc s o q) := by
  refine ⟨.same rfl rfl, fun i _ => ?_, fun i _ => ?_, fun i _ => ?_⟩ <;> rw [setProc_heap] <;> split <;> rename_i e
  · rw [e, hp]
  · rfl
  · rw [e, hw]
  · rfl
  · rw [e]; exact hr
  · exact id

/-- The result of some code keeps the invariant and forgets nothing. -/
structure Sound (T : Nat → Prop) (s : DSt) (x : Except Exc α × DSt) (Q : α → DSt → Prop) : Prop where
  inv : Vouched T x.2
  after : After s x.2
  val : ∀ a, x.1 = .ok a → Q a x.2

section
variable {s : DSt} {Q : α → DSt → Prop}

theorem Sound.ok {a : α} {t : DSt} (hI : Vouched T t) (hn : After s t) (hq : Q a t) : Sound T s (.ok a, t) Q :=
  ⟨hI, hn, fun b hb => by cases hb; exact hq⟩

theorem Sound.err {e : Exc} {t : DSt} (hI : Vouched T t) (hn : After s t) : Sound T s ((.error e : Except Exc α), t) Q :=
  ⟨hI, hn, fun b hb => (by cases hb)⟩

theorem Sound.bind {m : Py DSt β} {f : β → Py DSt α} {Q' : β → DSt → Prop} (h : Sound T s (m s) Q')
    (hf : ∀ b t, Vouched T t → After s t → Q' b t → Sound T t (f b t) Q) : Sound T s (Py.bind m f s) Q := by
  unfold Py.bind
  rcases hm : m s with ⟨r, t⟩
  rw [hm] at h
  cases r with
  | ok b =>
    have h2 := hf b t h.inv h.after (h.val b rfl)
    exact ⟨h2.inv, h.after.trans h2.after, h2.val⟩
  | error e => exact .err h.inv h.after

theorem Sound.weaken {x : Except Exc α × DSt} {Q' : α → DSt → Prop} (h : Sound T s x Q') (hq : ∀ a t, Q' a t → Q a t) : Sound T s x Q :=
  ⟨h.inv, h.after, fun a ha => hq a _ (h.val a ha)⟩

theorem Sound.base {x : Except Exc α × DSt} {t : DSt} (h : Sound T t x Q) (hn : After s t) : Sound T s x Q :=
  ⟨h.inv, hn.trans h.after, h.val⟩

theorem Sound.any {x : Except Exc α × DSt} {Q' : α → DSt → Prop} (h : Sound T s x Q') : Sound T s x Any := h.weaken fun _ _ _ => trivial

end

section
variable {s : DSt}

theorem sound_pure (h : Vouched T s) (a : α) {Q : α → DSt → Prop} (hq : Q a s) : Sound T s (Py.pure a s) Q := .ok h (.refl _) hq

theorem sound_raise (h : Vouched T s) (e : Exc) {Q : α → DSt → Prop} : Sound T s (Py.raise e s) Q := .err h (.refl _)

theorem sound_ptrace (h : Vouched T s) (c : Call) : Sound T s (ptraceCall K c s) Any := by
  rw [ptraceCall_run]
  exact ⟨h.logCall c, .one c, fun _ _ => trivial⟩

theorem sound_os (h : Vouched T s) (c : Call) : Sound T s (osCall K c s) fun r t => K s.log c = .ok r.1 r.2 ∧ t = logCall K c s := by
  rw [osCall_run]
  refine ⟨h.logCall c, .one c, fun a ha => ⟨?_, rfl⟩⟩
  cases hr : K s.log c with
  | ok v st => rw [hr] at ha; cases ha; rfl
  | err e => rw [hr] at ha; cases ha
  | interrupt => rw [hr] at ha; cases ha

theorem sound_upd (h : Vouched T s) (o : Nat) (f : Proc → Proc) (hp : (f (s.heap o)).pid = (s.heap o).pid) (hw : (f (s.heap o)).wasAttached = (s.heap o).wasAttached)
    (hq : (f (s.heap o)).running = (s.heap o).running) :
    Sound T s (updProc o f s) Any := .ok (h.setProc o _ hp (.inl hq)) (.setProc _ _ _ hp hw (fun hx => hq.trans hx)) trivial

theorem sound_detach (h : Vouched T s) (o : Nat) : Sound T s (detach K o s) Any := by
  have h1 := h.setProc o { s.heap o with isAttached := false } rfl (.inl rfl)
  have h2 := h1.logCall (K := K) (.detach o (s.heap o).pid)
  have a1 : After s (setProc s o { s.heap o with isAttached := false }) := .setProc _ _ _ rfl rfl id
  have a2 := a1.trans (.one (K := K) (.detach o (s.heap o).pid))
  rcases detach_cases (K := K) o s with ⟨_, e⟩ | ⟨_, _, e⟩ | ⟨_, _, _, e⟩ | ⟨_, _, x, hx, e⟩ <;> rw [e]
  · exact .ok h (.refl _) trivial
  · exact .ok (h1.unreg o) (a1.trans (.unreg _ _)) trivial
  · exact .ok (h2.unreg o) (a2.trans (.unreg _ _)) trivial
  · exact .err h2 a2

theorem sound_notRunning (h : Vouched T s) (o : Nat) (ho : o < s.next → Allowed T s o) :
    Sound T s (notRunning K o s) fun _ t => o < s.next → (t.heap o).running = false := by
  refine Sound.bind (Q' := fun _ t => t = setProc s o { s.heap o with running := false })
    (.ok (h.setProc o _ rfl (.inr ho)) (.setProc _ _ _ rfl rfl fun _ => rfl) rfl) fun _ t ht hn hq => ?_
  have hd := sound_detach (K := K) ht o
  refine ⟨hd.inv, hd.after, fun _ _ hlt => hd.after.dead o (hn.later.lt hlt) ?_⟩
  rw [hq, setProc_heap, if_pos rfl]

theorem sound_cont (h : Vouched T s) (o n : Nat) : Sound T s (procCont K o n s) Any :=
  Sound.bind (sound_ptrace h _) fun _ _ ht _ _ => sound_upd ht o _ rfl rfl rfl

theorem sound_syscall (h : Vouched T s) (o n : Nat) : Sound T s (procSyscall K o n s) Any :=
  Sound.bind (sound_ptrace h _) fun _ _ ht _ _ => sound_upd ht o _ rfl rfl rfl

theorem sound_singleStep (h : Vouched T s) (o : Nat) : Sound T s (procSingleStep K o s) Any :=
  Sound.bind (sound_ptrace h _) fun _ _ ht _ _ => sound_pure ht () trivial

theorem sound_kill (h : Vouched T s) (o n : Nat) : Sound T s (procKill K o n s) Any :=
  Sound.bind (sound_os h _) fun _ _ ht _ _ => sound_pure ht () trivial

theorem sound_setoptions (h : Vouched T s) (o n : Nat) : Sound T s (procSetoptions K o n s) Any :=
  Sound.bind (sound_ptrace h _) fun _ _ ht _ _ => sound_pure ht () trivial

theorem sound_display (h : Vouched T s) (o : Nat) : Sound T s (eventDisplay K o s) Any :=
  Sound.bind (sound_ptrace h _) fun _ _ ht _ _ => sound_pure ht () trivial

theorem sound_attach (h : Vouched T s) (o : Nat) : Sound T s (procAttach K o s) Any := by
  unfold procAttach
  split
  · exact sound_pure h () trivial
  · exact Sound.bind (sound_ptrace h _) fun _ _ ht _ _ => sound_upd ht o _ rfl rfl rfl

theorem sound_terminated (h : Vouched T s) (o : Nat) (ho : o < s.next → Allowed T s o) : Sound T s (processTerminated K o s) Any :=
  Sound.bind (sound_notRunning h o ho) fun _ _ ht _ _ => sound_pure ht _ trivial

/-- The end of the process with the number `p` is told for each object with this number. -/
def ToldAll (T : Nat → Prop) (p : Nat) (t : DSt) : Prop := ∀ i, i < t.next → (t.heap i).pid = p → Allowed T t i

/-- What a wait says of the event. -/
def WaitVal (T : Nat → Prop) (p : Nat) (e : Option Event) (t : DSt) : Prop := ∀ q a b, e = some (.exit q a b) → ToldAll T p t

/-- Code that waits for a process. -/
def SoundWait (T : Nat → Prop) (W : WaitPid) : Prop := ∀ p b s, Vouched T s → Sound T s (W p b s) (WaitVal T p)

theorem sound_filterEvent (h : Vouched T s) (signals : List Nat) (e : Option Event) : Sound T s (filterEvent signals e s) Any := by
  unfold filterEvent
  split
  · split
    · exact sound_pure h _ trivial
    · exact sound_raise h _
  · exact sound_raise h _
  · exact sound_raise h _

theorem After.add (s : DSt) (p : Proc) (d : List (Nat × Nat)) (l : List Nat) : After s { PT.setProc s s.next p with next := s.next + 1, dict := d, list := l } := by
  have hh : ∀ o, o < s.next → ({ PT.setProc s s.next p with next := s.next + 1, dict := d, list := l } : DSt).heap o = s.heap o := fun o ho => by
    show (PT.setProc s s.next p).heap o = _
    rw [setProc_heap, if_neg (Nat.ne_of_lt ho)]
  exact ⟨⟨Nat.le_succ _, [], (List.append_nil _).symm⟩, fun o ho => by rw [hh o ho], fun o ho => by rw [hh o ho], fun o ho => by rw [hh o ho]; exact id⟩

theorem sound_newProc (h : Vouched T s) (pid : Nat) (a : Bool) (parent : Option Nat) (th : Bool) :
    Sound T s (Py.bind (newProc K pid a parent th) (fun o => Py.bind (register pid o) fun _ => Py.pure o) s) Any := by
  cases a with
  | true => exact .ok (h.add pid true parent th) (.add _ _ _ _) trivial
  | false =>
    have hl := h.logCall (K := K) (.attach s.next pid)
    have hrun := ptraceCall_run (K := K) (.attach s.next pid) s
    simp only [Py.bind, newProc, hrun, Bool.false_eq_true, if_false]
    cases hr : K s.log (.attach s.next pid) with
    | ok v st => exact .ok (hl.add pid false parent th) ((After.one (K := K) (.attach s.next pid)).trans (.add _ _ _ _)) trivial
    | err e => exact .err hl (.one _)
    | interrupt => exact .err hl (.one _)

theorem sound_addExcept (h : Vouched T s) (o : Nat) (e : Exc) : Sound T s (addProcessExcept K o e s) Any := by
  unfold addProcessExcept
  split
  · exact sound_pure h () trivial
  · exact sound_display h _
  · exact Sound.bind (sound_upd h o _ rfl rfl rfl) fun _ t ht _ _ => Sound.bind (sound_detach ht o) fun _ u hu _ _ => sound_raise hu _

theorem sound_addWait {W : WaitPid} (hW : SoundWait T W) (h : Vouched T s) (o pid : Nat) : Sound T s (addProcessWait K W o pid s) Any := by
  have hw : Sound T s (waitSignalsPid W [SIGTRAP, SIGSTOP] pid s) Any :=
    Sound.bind (hW pid true s h) fun e t ht _ _ => sound_filterEvent ht _ e
  unfold addProcessWait
  split
  · rename_i e
    rw [e] at hw
    exact .ok hw.inv hw.after trivial
  · rename_i x t e
    rw [e] at hw
    exact (sound_addExcept hw.inv o x).base hw.after

theorem sound_add {W : WaitPid} (hW : SoundWait T W) (h : Vouched T s) (pid : Nat) (a : Bool) (parent : Option Nat) (th : Bool) :
    Sound T s (addProcess K W pid a parent th s) Any := by
  unfold addProcess
  split
  · exact .err h (.refl _)
  · have hassoc : Py.bind (newProc K pid a parent th) (fun o =>
        Py.bind (register pid o) fun _ =>
        Py.bind (addProcessWait K W o pid) fun _ =>
        Py.bind (addProcessOptions K o) fun _ =>
        Py.pure o) =
      Py.bind (Py.bind (newProc K pid a parent th) (fun o =>
        Py.bind (register pid o) fun _ => Py.pure o)) fun o =>
        Py.bind (addProcessWait K W o pid) fun _ =>
        Py.bind (addProcessOptions K o) fun _ =>
        Py.pure o := by
      rw [py_bind_assoc]
      congr 1
    rw [hassoc]
    refine Sound.bind (sound_newProc h pid a parent th) fun o t ht _ _ => ?_
    refine Sound.bind (sound_addWait hW ht o pid) fun _ u hu _ _ => ?_
    refine Sound.bind (Q' := Any) ?_ fun _ v hv _ _ => sound_pure hv o trivial
    unfold addProcessOptions
    split
    · exact sound_setoptions hu o _
    · exact sound_pure hu () trivial

/-- The value is no exit. -/
def NoExit (ev : Event) (_ : DSt) : Prop := ∀ q a b, ev ≠ .exit q a b

theorem sound_ptraceEvent {W : WaitPid} (hW : SoundWait T W) (h : Vouched T s) (o : Nat) (event : Int) :
    Sound T s (ptraceEvent K W o event s) NoExit := by
  unfold ptraceEvent
  split
  · exact Sound.bind (sound_ptrace h _) fun p t ht _ _ => Sound.bind (sound_add hW ht p true (some o) _) fun q u hu _ _ =>
      sound_pure hu _ fun _ _ _ hx => by cases hx
  · split
    · exact .ok h (.refl _) fun _ _ _ hx => by cases hx
    · exact .err h (.refl _)

theorem sound_status {W : WaitPid} (hW : SoundWait T W) (h : Vouched T s) (o : Nat) (status : Int)
    (ho : o < s.next → OverStatus status → Allowed T s o) :
    Sound T s (processStatus K W o status s) fun ev _ => ∀ q a b, ev = .exit q a b → OverStatus status := by
  unfold processStatus
  cases hc : classify true status with
  | exited code =>
    have hov : OverStatus status := .inl ⟨code, by rw [classify_kind] at hc; cases hm : waitMeaning status <;> rw [hm] at hc <;> cases hc; rfl⟩
    exact Sound.bind (sound_notRunning h o fun hx => ho hx hov) fun _ _ ht _ _ => sound_pure ht _ fun _ _ _ _ => hov
  | killed n =>
    have hov : OverStatus status := .inr ⟨n, by rw [classify_kind] at hc; cases hm : waitMeaning status <;> rw [hm] at hc <;> cases hc; rfl⟩
    exact Sound.bind (sound_notRunning h o fun hx => ho hx hov) fun _ _ ht _ _ => sound_pure ht _ fun _ _ _ _ => hov
  | unknown => exact .err h (.refl _)
  | event ev => exact (sound_ptraceEvent hW h o ev).weaken fun e _ hx q a b hq => (hx q a b hq).elim
  | signal n => exact Sound.bind (sound_upd h o _ rfl rfl rfl) fun _ _ ht _ _ => sound_pure ht _ fun _ _ _ hx => by cases hx

theorem notRunning_next (o : Nat) (s : DSt) : (notRunning K o s).2.next = s.next := by
  show (detach K o _).2.next = _
  rcases detach_cases (K := K) o (setProc s o { s.heap o with running := false }) with ⟨_, e⟩ | ⟨_, _, e⟩ | ⟨_, _, _, e⟩ | ⟨_, _, x, hx, e⟩ <;> rw [e] <;> rfl

theorem run_bind_next {m : Py DSt β} {f : β → Py DSt α} (hm : (m s).2.next = s.next) (hf : ∀ b t, (f b t).2.next = t.next) : (Py.bind m f s).2.next = s.next := by
  unfold Py.bind
  rcases h : m s with ⟨r, t⟩
  rw [h] at hm
  cases r with
  | ok b => exact (hf b t).trans hm
  | error e => exact hm

theorem status_next {W : WaitPid} (o : Nat) {status : Int} (h : OverStatus status) : (processStatus K W o status s).2.next = s.next := by
  unfold processStatus
  rw [classify_kind]
  rcases h with ⟨c, h⟩ | ⟨c, h⟩ <;> rw [h]
  · exact run_bind_next (notRunning_next o s) fun _ _ => rfl
  · exact run_bind_next (notRunning_next o s) fun _ _ => rfl

theorem terminated_next (o : Nat) : (processTerminated K o s).2.next = s.next := run_bind_next (notRunning_next o s) fun _ _ => rfl

/-- What a wait leaves behind. -/
structure Waited (p : Nat) (b : Bool) (s : DSt) (r : Nat × Int) (t : DSt) : Prop where
  dict : t.dict = s.dict
  told : ∃ w nohang wall, (⟨.waitpid w nohang wall, .ok r.1 r.2, s.dict⟩ : Entry) ∈ t.log
  num : p ≠ 0 → r.1 ≠ p → b = false ∧ r.1 = 0

theorem sound_check {c : Call} (h : Vouched T s) (p : Nat) (b : Bool) (w : Option Nat) (nohang wall : Bool) (hc : c = .waitpid w nohang wall) :
    Sound T s (Py.bind (osCall K c) (checkPid p b) s) (Waited p b s) := by
  refine Sound.bind (sound_os h c) fun r t ht _ hq => ?_
  unfold checkPid
  split
  · exact .err ht (.refl _)
  · rename_i hx
    refine sound_pure ht r ⟨by rw [hq.2]; rfl, ⟨w, nohang, wall, ?_⟩, fun h1 h2 => ?_⟩
    · rw [hq.2]
      show _ ∈ s.log ++ [_]
      rw [hq.1, hc]
      exact List.mem_append.2 (.inr List.mem_cons_self)
    · cases b <;> simp_all

theorem sound_waitpid (h : Vouched T s) (p : Nat) (b : Bool) : Sound T s (waitpidRaw K p b s) (Waited p b s) := by
  unfold waitpidRaw
  split
  · split
    · exact .err h (.refl _)
    · exact sound_check h p b _ _ _ rfl
  · exact sound_check h p b _ _ _ rfl

theorem check_echild {c : Call} {t : DSt} {p : Nat} {b : Bool} (he : Py.bind (osCall K c) (checkPid p b) s = (.error (.os ECHILD), t)) :
    t = logCall K c s ∧ K s.log c = .err 10 := by
  unfold Py.bind at he
  rw [osCall_run] at he
  cases hr : K s.log c with
  | ok v st =>
    rw [hr] at he
    simp only [osRes] at he
    unfold checkPid at he
    split at he <;> cases he
  | err e =>
    rw [hr] at he
    simp only [osRes, Prod.mk.injEq, Except.error.injEq, Exc.os.injEq] at he
    exact ⟨he.2.symm, by rw [he.1]; rfl⟩
  | interrupt => rw [hr] at he; cases he

theorem waitpid_echild {p : Nat} (hp : p ≠ 0) {b : Bool} {t : DSt} (he : waitpidRaw K p b s = (.error (.os ECHILD), t)) :
    t.dict = s.dict ∧ ∃ nohang wall, (⟨.waitpid (some p) nohang wall, .err 10, s.dict⟩ : Entry) ∈ t.log := by
  unfold waitpidRaw at he
  rw [if_pos hp] at he
  split at he
  · cases he
  · rename_i o _
    obtain ⟨rfl, hk⟩ := check_echild he
    refine ⟨rfl, !b, (s.heap o).isThread, ?_⟩
    show _ ∈ s.log ++ [_]
    rw [← hk]
    exact List.mem_append.2 (.inr List.mem_cons_self)

theorem toldAll_mono {p : Nat} {t u : DSt} (hn : u.next = t.next) (ha : After t u) (h : ToldAll T p t) : ToldAll T p u := fun i hi hp =>
  ha.allowed (hn ▸ hi) (h i (hn ▸ hi) (by rw [← ha.pid i (hn ▸ hi)]; exact hp))

theorem toldAll_of {p o : Nat} {t : DSt} (h : Vouched T t) (ho : (p, o) ∈ t.dict) {e : Entry} (hd : e.dict = t.dict) (he : e ∈ t.log) (hx : TellsEnd p e) : ToldAll T p t :=
  fun i hi hp => .inr (.inr ⟨e, he, hp.symm ▸ hx, .inr ⟨o, h.dict p o ho i hi hp, by rw [hp, hd]; exact ho⟩⟩)

theorem toldAll_zero (t : DSt) : ToldAll T 0 t := fun _ _ hp => .inl hp

theorem sound_waitEventPid (n : Nat) : SoundWait T (waitEventPid K n) := by
  induction n with
  | zero => exact fun _ _ s h => .err h (.refl _)
  | succ n ih =>
    intro p b s h
    have hw := sound_waitpid (K := K) h p b
    unfold waitEventPid
    split
    · rename_i r t e
      rw [e] at hw
      have hv := hw.val r rfl
      refine Sound.base (t := t) ?_ hw.after
      unfold waitReply
      split
      · exact .ok hw.inv (.refl _) fun _ _ _ hx => by cases hx
      · rename_i hnz
        split
        · rename_i o ho
          have hm := dictGet_some ho
          obtain ⟨w, nh, wl, hl⟩ := hv.told
          have hall : OverStatus r.2 → ToldAll T r.1 t := fun hov => toldAll_of hw.inv hm hv.dict.symm hl (.inl ⟨w, nh, wl, r.2, rfl, rfl, hov⟩)
          refine Sound.bind (Q' := fun ev u => ∀ q a b, ev = .exit q a b → ToldAll T p u) ?_ fun ev u hu _ hq => sound_pure hu _ fun q a b hx => by
            cases hx; exact hq q a b rfl
          have hst := sound_status (K := K) ih hw.inv o r.2 fun hlt hov => hall hov o hlt (hw.inv.own _ _ hm).1
          refine ⟨hst.inv, hst.after, fun ev hev q a c hx => ?_⟩
          by_cases hp : p = 0
          · rw [hp]; exact toldAll_zero _
          · have hov := hst.val ev hev q a c hx
            have hr : r.1 = p := by
              by_contra hne
              have := hv.num hp hne
              apply hnz
              rw [this.1, this.2]
              rfl
            exact toldAll_mono (status_next o hov) hst.after (hr ▸ hall hov)
        · exact ih p b t hw.inv
    · rename_i x t e
      rw [e] at hw
      refine Sound.base (t := t) ?_ hw.after
      unfold waitExcept
      split
      · rename_i hx
        split
        · rename_i o ho
          have hm := dictGet_some ho
          have hall : ToldAll T p t := by
            by_cases hp : p = 0
            · rw [hp]; exact toldAll_zero _
            · rw [hx] at e
              obtain ⟨hd, nh, wl, hl⟩ := waitpid_echild hp e
              exact toldAll_of hw.inv hm hd.symm hl (.inr (.inl ⟨nh, wl, rfl, rfl⟩))
          have hst := sound_terminated (K := K) hw.inv o fun hlt => hall o hlt (hw.inv.own _ _ hm).1
          refine Sound.bind (Q' := fun _ u => ToldAll T p u) ⟨hst.inv, hst.after, fun ev hev => toldAll_mono (terminated_next o) hst.after hall⟩
            fun ev u hu _ hq => sound_pure hu _ fun _ _ _ _ => hq
        · exact .err hw.inv (.refl _)
      · exact .err hw.inv (.refl _)

theorem sound_poll {W : WaitPid} (hW : SoundWait T W) : ∀ (pids : List Nat) (s : DSt), Vouched T s → Sound T s (pollPids W pids s) Any
  | [], s, h => sound_pure h none trivial
  | p :: ps, s, h => by
    refine Sound.bind (hW p false s h) fun e t ht _ _ => ?_
    cases e with
    | none => exact sound_poll hW ps t ht
    | some ev => exact sound_pure ht _ trivial

theorem sound_waitAny (fuel : Nat) (b : Bool) : ∀ (n : Nat) (s : DSt), Vouched T s → Sound T s (waitAny K fuel n b s) Any
  | 0, s, h => .err h (.refl _)
  | n + 1, s, h => by
    unfold waitAny
    split
    · exact .err h (.refl _)
    · exact (sound_waitEventPid fuel _ b s h).any
    · refine Sound.bind (sound_poll (sound_waitEventPid fuel) _ s h) fun e t ht _ _ => ?_
      cases e with
      | some ev => exact sound_pure ht _ trivial
      | none =>
        dsimp only
        split
        · exact Sound.bind (sound_os ht .sleep) fun _ u hu _ _ => sound_waitAny fuel b n u hu
        · exact sound_pure ht _ trivial

theorem sound_waitEvent (fuel : Nat) (h : Vouched T s) (pid : Option Nat) (b : Bool) : Sound T s (waitProcessEvent K fuel pid b s) Any := by
  cases pid with
  | some p => exact (sound_waitEventPid fuel p b s h).any
  | none => exact sound_waitAny fuel b fuel s h

theorem sound_waitSignals (fuel : Nat) (h : Vouched T s) (signals : List Nat) (pid : Option Nat) : Sound T s (waitSignals K fuel signals pid s) Any :=
  Sound.bind (sound_waitEvent fuel h pid true) fun e _ ht _ _ => sound_filterEvent ht signals e

theorem sound_waitSyscall (fuel : Nat) (h : Vouched T s) (process : Option Nat) : Sound T s (waitSyscall K fuel process s) Any :=
  sound_waitSignals fuel h _ _

theorem sound_waitExit (fuel : Nat) {o : Nat} : ∀ (n : Nat) (s : DSt), Vouched T s → Sound T s (waitExit K fuel o n s) fun _ t => o < s.next → Allowed T t o
  | 0, s, h => .err h (.refl _)
  | n + 1, s, h => by
    refine Sound.bind (sound_waitEventPid fuel _ true s h) fun e t ht hn hq => ?_
    split
    · exact sound_pure ht () fun ho => hq _ _ _ rfl o (hn.later.lt ho) (hn.pid o ho)
    · refine Sound.bind (Q' := Any) ?_ fun _ u hu hn2 _ => (sound_waitExit fuel n u hu).weaken fun _ v hv ho => hv ((hn.trans hn2).later.lt ho)
      split
      · exact sound_cont ht o _
      · exact sound_cont ht o _
    · exact .err ht (.refl _)
    · exact .err ht (.refl _)

theorem sound_terminateKill (h : Vouched T s) (o : Nat) : Sound T s (terminateKill K o s) fun done t => done = true → o < s.next → Allowed T t o := by
  unfold terminateKill
  split
  · rename_i e
    have hk : Sound T s ((if (s.heap o).isStopped then procCont K o SIGKILL else procKill K o SIGKILL) s) Any := by
      split
      · exact sound_cont h o _
      · exact sound_kill h o _
    rw [e] at hk
    exact .ok hk.inv hk.after fun hx => by cases hx
  · rename_i x t e
    have hk : Sound T s ((if (s.heap o).isStopped then procCont K o SIGKILL else procKill K o SIGKILL) s) Any := by
      split
      · exact sound_cont h o _
      · exact sound_kill h o _
    rw [e] at hk
    split
    · rename_i hx
      refine .ok hk.inv hk.after fun _ ho => ?_
      rw [hx] at e
      split at e
      · unfold procCont Py.bind at e
        rw [ptraceCall_run] at e
        cases hr : K s.log (.cont o (s.heap o).pid (filterSignal SIGKILL)) with
        | ok v st => rw [hr] at e; cases e
        | interrupt => rw [hr] at e; cases e
        | err n =>
          rw [hr] at e
          simp only [ptraceRes, Prod.mk.injEq, Except.error.injEq, Exc.ptrace.injEq, Option.some.injEq] at e
          refine .inr (.inr ⟨⟨.cont o (s.heap o).pid 9, .err 3, s.dict⟩, ?_, ?_, ?_⟩)
          · rw [← e.2]
            show _ ∈ s.log ++ [_]
            rw [hr, e.1]
            exact List.mem_append.2 (.inr List.mem_cons_self)
          · rw [hk.after.pid o ho]
            exact .inr (.inr ⟨o, rfl, rfl⟩)
          · rw [hk.after.pid o ho]
            exact .inl ⟨9, rfl⟩
      · unfold procKill Py.bind at e
        rw [osCall_run] at e
        cases hr : K s.log (.kill o (s.heap o).pid SIGKILL) with
        | ok v st => rw [hr] at e; cases e
        | interrupt => rw [hr] at e; cases e
        | err n => rw [hr] at e; cases e
    · exact .err hk.inv hk.after

theorem sound_terminate (fuel : Nat) (h : Vouched T s) {o : Nat} (ho : o < s.next) (wait : Bool) :
    Sound T s (terminate K fuel o wait s) fun _ t => wait = true → (s.heap o).wasAttached = true → (t.heap o).running = false := by
  unfold terminate
  split
  · rename_i hx
    refine sound_pure h _ fun _ hw => ?_
    rw [hw] at hx
    simpa using hx
  · refine Sound.bind (sound_terminateKill h o) fun done t ht hn hq => ?_
    split
    · rename_i hx
      refine sound_pure ht _ fun hw => ?_
      rw [hw] at hx
      simp at hx
    · refine Sound.bind (Q' := fun _ u => o < s.next → Allowed T u o) ?_ fun _ u hu hn2 hq2 => ?_
      · split
        · rename_i hd
          exact sound_pure ht _ (hq hd)
        · exact (sound_waitExit fuel fuel t ht).weaken fun _ v hv ho => hv (hn.later.lt ho)
      · exact Sound.bind (sound_notRunning hu o fun _ => hq2 ho) fun _ v hv _ hd => sound_pure hv _ fun _ _ => hd ((hn.trans hn2).later.lt ho)

/-- Each process of the list that the debugger has created is over. -/
def AllOver (os : List Nat) (s t : DSt) : Prop := ∀ o ∈ os, (s.heap o).wasAttached = true → (t.heap o).running = false

theorem sound_quitLoop (fuel : Nat) : ∀ (os : List Nat) (s : DSt), Vouched T s → (∀ o ∈ os, o < s.next) → Sound T s (quitLoop K fuel os s) fun _ t => AllOver os s t
  | [], _, h, _ => sound_pure h () fun _ hx => by cases hx
  | o :: os, s, h, ho => by
    have hlt := ho o List.mem_cons_self
    refine Sound.bind (sound_terminate fuel h hlt true) fun _ t ht hn hq => Sound.bind (sound_detach ht o) fun _ u hu hn2 _ => ?_
    have hl := sound_quitLoop fuel os u hu fun q hq => (hn.trans hn2).later.lt (ho q (List.mem_cons_of_mem _ hq))
    refine ⟨hl.inv, hl.after, fun a ha q hqm hw => ?_⟩
    rcases List.mem_cons.1 hqm with rfl | hm
    · exact (hn2.trans hl.after).dead q (hn.later.lt hlt) (hq rfl hw)
    · exact hl.val a ha q hm (by rw [(hn.trans hn2).was q (ho q hqm)]; exact hw)

theorem sound_quit (fuel : Nat) (h : Vouched T s) : Sound T s (quit K fuel s) fun _ t => AllOver s.list s t :=
  (sound_quitLoop fuel _ s h fun o ho => h.list o (List.mem_reverse.1 ho)).weaken fun _ _ hx o ho => hx o (List.mem_reverse.2 ho)

theorem sound_void {m : Py DSt α} {Q : α → DSt → Prop} (h : Sound T s (m s) Q) : Sound T s (void m s) Any :=
  Sound.bind h fun _ _ ht _ _ => sound_pure ht () trivial

theorem sound_onObj {m : Py DSt α} {Q : α → DSt → Prop} (h : Vouched T s) (o : Nat) (hm : o < s.next → Sound T s (m s) Q) : Sound T s (onObj o m s) Any := by
  unfold onObj
  split
  · rename_i ho
    exact sound_void (hm ho)
  · exact sound_pure h () trivial

theorem sound_runOp (fuel : Nat) (op : Op) (h : Vouched T s) (hT : ∀ o, op = .processTerminated o → T o) : Sound T s (runOp K fuel op s) Any := by
  cases op with
  | addProcess pid a parent th => exact sound_void (sound_add (sound_waitEventPid fuel) h pid a parent th)
  | deleteProcess o => exact sound_onObj h o fun _ => (.ok (h.unreg o) (.unreg _ _) trivial : Sound T s (deleteProcess o s) Any)
  | deletePid pid =>
    show Sound T s (deletePid pid s) Any
    unfold deletePid
    split
    · exact .ok (h.unreg _) (.unreg _ _) trivial
    · exact sound_pure h () trivial
  | quit => exact (sound_quit fuel h).any
  | waitProcessEvent pid b => exact sound_void (sound_waitEvent fuel h pid b)
  | waitSignals signals pid => exact sound_void (sound_waitSignals fuel h signals pid)
  | waitSyscall o =>
    cases o with
    | none => exact sound_void (sound_waitSyscall fuel h none)
    | some o => exact sound_onObj h o fun _ => sound_waitSyscall fuel h (some o)
  | traceFork => exact .ok ⟨h.over, h.dict, h.own, h.list⟩ (.same (.same rfl rfl) rfl) trivial
  | traceExec => exact .ok ⟨h.over, h.dict, h.own, h.list⟩ (.same (.same rfl rfl) rfl) trivial
  | traceClone => exact .ok ⟨h.over, h.dict, h.own, h.list⟩ (.same (.same rfl rfl) rfl) trivial
  | enableSysgood => exact .ok ⟨h.over, h.dict, h.own, h.list⟩ (.same (.same rfl rfl) rfl) trivial
  | attach o => exact sound_onObj h o fun _ => sound_attach h o
  | detach o => exact sound_onObj h o fun _ => sound_detach h o
  | cont o n => exact sound_onObj h o fun _ => sound_cont h o n
  | syscall o n => exact sound_onObj h o fun _ => sound_syscall h o n
  | singleStep o => exact sound_onObj h o fun _ => sound_singleStep h o
  | kill o n => exact sound_onObj h o fun _ => sound_kill h o n
  | setoptions o n => exact sound_onObj h o fun _ => sound_setoptions h o n
  | terminate o wait => exact sound_onObj h o fun ho => sound_terminate fuel h ho wait
  | waitExit o => exact sound_onObj h o fun _ => sound_waitExit fuel fuel s h
  | processTerminated o => exact sound_onObj h o fun _ => sound_terminated h o fun _ => .inr (.inl (hT o rfl))

/-! ### strace.py -/

theorem sound_updSys (h : Vouched T s) (o : Nat) (f : SysState → SysState) : Sound T s (updSys o f s) Any := sound_upd h o _ rfl rfl rfl

theorem sound_sysEnter (h : Vouched T s) (C : SysCfg) (o : Nat) : Sound T s (sysEnter K C o s) Any := by
  unfold sysEnter
  refine Sound.bind (sound_ptrace h (.inspect o (s.heap o).pid)) fun r t ht _ _ => ?_
  refine Sound.bind (sound_updSys ht o _) fun _ u hu _ _ => ?_
  refine Sound.bind (Q' := Any) ?_ fun _ v hv _ _ => Sound.bind (sound_updSys hv o _) fun _ w hw _ _ => .ok hw (.refl _) trivial
  split
  · exact sound_void (sound_ptrace hu _)
  · exact sound_updSys hu o _

theorem sound_sysExit (fuel : Nat) (h : Vouched T s) (o : Nat) : Sound T s (sysExit K fuel o s) Any := by
  unfold sysExit
  refine Sound.bind (Q' := Any) ?_ fun _ t ht _ _ => Sound.bind (Q' := Any) ?_ fun _ u hu _ _ =>
    Sound.bind (sound_updSys hu o _) fun _ v hv _ _ => sound_pure hv _ trivial
  · unfold sysResult
    split
    · exact Sound.bind (sound_ptrace h _) fun _ u hu _ _ => sound_updSys hu o _
    · exact sound_pure h () trivial
  · unfold sysExecTrap
    split
    · exact Sound.bind (sound_syscall ht o 0) fun _ u hu _ _ => sound_void (sound_waitSignals fuel hu _ _)
    · exact sound_pure ht () trivial

theorem sound_sysEvent (fuel : Nat) (h : Vouched T s) (C : SysCfg) (o : Nat) : Sound T s (sysEvent K fuel C o s) Any := by
  unfold sysEvent
  split
  · exact sound_sysExit fuel h o
  · exact sound_sysEnter h C o

theorem sound_prepare (h : Vouched T s) (o : Nat) : Sound T s (prepareProcess K o s) Any :=
  Sound.bind (sound_syscall h o 0) fun _ _ ht _ _ => sound_updSys ht o _

theorem sound_exited (h : Vouched T s) (C : StraceCfg) (o : Nat) : Sound T s (processExited K C o s) Any := by
  unfold processExited
  split
  · exact sound_display h o
  · exact sound_pure h () trivial

theorem sound_handle (fuel : Nat) (h : Vouched T s) (C : StraceCfg) (r : Except Exc Event) (code : Nat) : Sound T s (straceHandle K fuel C r code s) Any := by
  unfold straceHandle
  cases r with
  | ok ev =>
    refine Sound.bind (Q' := Any) (Sound.bind (sound_sysEvent fuel h C.sys ev.proc) fun r t ht _ _ => ?_) fun _ u hu _ _ => sound_pure hu _ trivial
    refine Sound.bind (Q' := Any) ?_ fun _ u hu _ _ => sound_syscall hu ev.proc 0
    split
    · exact sound_display ht _
    · exact sound_pure ht () trivial
  | error e =>
    cases e with
    | event ev =>
      cases ev with
      | exit o a b => exact Sound.bind (sound_exited h C o) fun _ t ht _ _ => sound_pure ht _ trivial
      | signal o n =>
        exact Sound.bind (sound_display h o) fun _ t ht _ _ => Sound.bind (sound_syscall ht o _) fun _ u hu _ _ => sound_pure hu _ trivial
      | newProcess q =>
        refine Sound.bind (Q' := Any) (Sound.bind (sound_prepare h q) fun _ t ht _ _ => ?_) fun _ u hu _ _ => sound_pure hu _ trivial
        split
        · exact sound_syscall ht _ 0
        · exact .err ht (.refl _)
      | execution o => exact Sound.bind (sound_syscall h o 0) fun _ t ht _ _ => sound_pure ht _ trivial
    | _ => exact .err h (.refl _)

theorem sound_turn (fuel : Nat) (h : Vouched T s) (C : StraceCfg) (code : Nat) : Sound T s (straceTurn K fuel C code s) Any := by
  have hw := sound_waitSyscall (K := K) fuel h none
  exact (sound_handle fuel hw.inv C _ code).base hw.after

theorem sound_straceLoop (fuel : Nat) (C : StraceCfg) : ∀ (n code : Nat) (s : DSt), Vouched T s → Sound T s (straceLoop K fuel C n code s) Any
  | 0, _, s, h => .err h (.refl _)
  | n + 1, code, s, h => by
    unfold straceLoop
    split
    · exact sound_pure h _ trivial
    · exact Sound.bind (sound_turn fuel h C code) fun c t ht _ _ => sound_straceLoop fuel C n c t ht

theorem sound_create (fuel : Nat) (h : Vouched T s) (pid : Nat) (a : Bool) : Sound T s (createProcess K fuel pid a s) Any := by
  have ha := sound_add (K := K) (sound_waitEventPid (K := K) fuel) h pid a none false
  unfold createProcess
  split <;> rename_i e <;> rw [e] at ha
  · exact .ok ha.inv ha.after trivial
  · exact .ok ha.inv ha.after trivial
  · exact .ok ha.inv ha.after trivial
  · exact .err ha.inv ha.after

theorem sound_straceRun (fuel : Nat) (h : Vouched T s) (C : StraceCfg) (pid : Nat) (a : Bool) : Sound T s (straceRun K fuel C pid a s) Any := by
  refine Sound.bind (sound_create fuel h pid a) fun o t ht _ _ => ?_
  cases o with
  | none => exact sound_pure ht _ trivial
  | some o =>
    exact Sound.bind (Q' := Any) (Sound.bind (sound_prepare ht o) fun _ u hu _ _ => sound_straceLoop fuel C fuel 0 u hu) fun _ u hu _ _ => sound_pure hu _ trivial

theorem sound_straceMain (fuel : Nat) (h : Vouched T s) (C : StraceCfg) (pid : Nat) (a : Bool) : Sound T s (straceMain K fuel C pid a s) Any := by
  have hr := sound_straceRun (K := K) fuel h C pid a
  unfold straceMain
  rcases hx : straceRun K fuel C pid a s with ⟨r, t⟩
  rw [hx] at hr
  refine Sound.base (t := t) (Sound.bind (Q' := Any) ?_ fun code u hu _ _ => Sound.bind (sound_quit fuel hu) fun _ v hv _ _ => sound_pure hv _ trivial) hr.after
  have ht := hr.inv
  cases r with
  | ok code => exact sound_pure ht _ trivial
  | error e =>
    show Sound T t (straceExcept K C e t) Any
    unfold straceExcept
    split
    · exact Sound.bind (sound_exited ht C _) fun _ u hu _ _ => sound_pure hu _ trivial
    · exact sound_pure ht _ trivial
    · exact .err ht (.refl _)
    · exact sound_pure ht _ trivial

end

end PT
