import Verif.Lemmas.Asks3
import Verif.Spec.Stopped

/-! The attribute `is_stopped` under any calls of the library. -/

namespace PT
open Spec

variable {α β : Type} {K : Kern} {B : Nat → Prop} {D : Nat → Prop} {s : DSt}

theorem Asked.more {D' : Nat → Prop} {x : Except Exc α × DSt} {Q : α → DSt → Prop} {E : Exc → DSt → Prop} (h : Asked B D s x Q E) (hD : ∀ i, D i → D' i) :
    Asked B D' s x Q E :=
  ⟨h.asks, fun h1 h2 => (h.inv h1 h2).more hD, h.old, h.val, h.exc⟩

theorem Asked.free {x : Except Exc α × DSt} {Q : α → DSt → Prop} {E : Exc → DSt → Prop} (h : Asked B D s x Q E) : Asked B D s x Free Free :=
  h.weaken (fun _ _ _ => trivial) fun _ _ _ => trivial

theorem asked_voidFree {m : Py DSt β} {Q : β → DSt → Prop} {E : Exc → DSt → Prop} (h : Asked B D s (m s) Q E) : Asked B D s (void m s) Free Free :=
  Asked.bind (Q' := Free) h.free fun _ _ hI _ _ => asked_pure hI _ fun _ => trivial

theorem asked_onObj {o : Nat} {m : Py DSt β} {Q : β → DSt → Prop} {E : Exc → DSt → Prop} (h : Lawful s.log → Core B D none s) (hm : Asked B D s (m s) Q E) :
    Asked B D s (onObj o m s) Free Free := by
  unfold onObj
  split
  · exact asked_voidFree hm
  · exact .ok h (.refl s) fun _ => trivial

theorem asked_event1 (fuel : Nat) (pid : Option Nat) (b : Bool) (h : Lawful s.log → Core B D none s) :
    Asked B D s (waitProcessEvent K fuel pid b s) ReportOK RaisedOK := by
  cases pid with
  | some p => exact asked_wait fuel p b h
  | none => exact asked_any fuel fuel b h

theorem asked_signals (fuel : Nat) (sigs : List Nat) (pid : Option Nat) (h : Lawful s.log → Core B D none s) :
    Asked B D s (waitSignals K fuel sigs pid s) Free Free := by
  unfold waitSignals
  refine Asked.bind (Q' := ReportOK) ((asked_event1 fuel pid true h).weaken (fun _ _ h => h) fun _ _ _ => trivial) fun r t hI _ hq => ?_
  exact (asked_filter hI sigs r hq).free

/-- Only options change. -/
theorem Core.options (h : Core B D none s) {t : DSt} (h1 : t.heap = s.heap) (h2 : t.next = s.next) (h3 : t.dict = s.dict) (h4 : t.list = s.list) (h5 : t.log = s.log) :
    Core B D none t := by
  obtain ⟨heap, next, dict, list, o, a, b, c, d, log⟩ := t
  dsimp only at h1 h2 h3 h4 h5
  subst h1 h2 h3 h4 h5
  exact ⟨⟨h.reg.keys, h.reg.nodup, h.reg.agree, h.reg.alloc, h.reg.att⟩, h.asks, h.flag, h.full, h.fresh, h.seen, h.left⟩

theorem asked_options (h : Lawful s.log → Core B D none s) {t : DSt} (h1 : t.heap = s.heap) (h2 : t.next = s.next) (h3 : t.dict = s.dict) (h4 : t.list = s.list)
    (h5 : t.log = s.log) : Asked B D s (.ok (), t) Free Free :=
  .ok (fun hl => (h (h5 ▸ hl)).options h1 h2 h3 h4 h5)
    ⟨by rw [h2], fun _ _ => by rw [h1], fun _ _ => by rw [h1], fun _ _ => by rw [h1], fun _ _ => by rw [h1], fun _ _ hx => by rw [h1]; exact hx, ⟨[], by simp [h5]⟩⟩
    fun _ => trivial

theorem asked_attach {o : Nat} (h : Lawful s.log → Core B D none s) (ho : o ∈ s.list) : Asked B D s (procAttach K o s) Free Free := by
  unfold procAttach
  split
  · exact .ok h (.refl s) fun _ => trivial
  · refine Asked.bind (Q' := fun _ t => t.list = s.list) ((asked_ptrace h _ rfl fun _ _ hx => by cases hx).weaken (fun _ t ht => by rw [ht]; rfl) fun _ _ _ => trivial)
      fun _ t hI _ hq => ?_
    refine .ok (fun hl => ?_) (Old.setProc t o _ ⟨rfl, rfl, rfl, rfl, id⟩) fun _ => trivial
    have hc := hI hl
    have hm : o ∈ t.list := by rw [hq hl]; exact ho
    have hh : ∀ i, ((setProc t o { t.heap o with isAttached := true }).heap i).pid = (t.heap i).pid ∧
        ((setProc t o { t.heap o with isAttached := true }).heap i).running = (t.heap i).running ∧
        ((setProc t o { t.heap o with isAttached := true }).heap i).isStopped = (t.heap i).isStopped := fun i => by
      rw [setProc_heap]
      split
      · rename_i e
        rw [e]
        exact ⟨rfl, rfl, rfl⟩
      · exact ⟨rfl, rfl, rfl⟩
    refine ⟨⟨hc.reg.keys, hc.reg.nodup, fun p i => ?_, hc.reg.alloc, fun i hi => ?_⟩, hc.asks, fun i hi h1 h2 => hc.flag i hi ((hh i).2.1 ▸ h1) ((hh i).2.2 ▸ h2),
      fun i hi h1 h2 => (hh i).2.2 ▸ hc.full i hi ((hh i).2.1 ▸ h1) h2, hc.fresh,
      hc.seen, fun i hi h1 => hc.left i hi ((hh i).2.1 ▸ h1)⟩
    · rw [(hh i).1]
      exact hc.reg.agree p i
    · by_cases e : i = o
      · exact e ▸ hm
      · rw [setProc_heap, if_neg e] at hi
        exact hc.reg.att i hi

theorem asked_quitAny (fuel : Nat) (h : Lawful s.log → Core B D none s) : Asked B (fun _ => True) s (quit K fuel s) Free Free := by
  obtain ⟨D', hx⟩ := asked_quit (K := K) (B := B) (D := fun i => i ∉ s.list) fuel (fun hl => by
    have hc := h hl
    exact ⟨hc.reg, hc.asks, hc.flag, hc.full, hc.fresh, hc.seen, fun i _ _ => by
      by_cases hm : i ∈ s.list
      · exact .inl hm
      · exact .inr hm⟩) fun _ o ho hn => hn ho
  exact hx.more fun _ _ => trivial

theorem asked_op (fuel : Nat) (op : Op) (h : Lawful s.log → Core (fun _ => False) (fun _ => True) none s) (hop : Regular s op) :
    Asked (fun _ => False) (fun _ => True) s (runOp K fuel op s) Free Free := by
  obtain ⟨hp, hm, hs⟩ := hop
  have hdel : ∀ o, (s.heap o).isAttached = false → o ∈ s.list → Asked (fun _ => False) (fun _ => True) s (deleteProcess o s) Free Free := fun o h1 h2 =>
    .ok (fun hl => (h hl).unreg o h1 h2 (.inr trivial)) (.unreg o s) fun _ => trivial
  cases op with
  | addProcess pid a parent th => exact asked_voidFree (asked_add (good_wait fuel) (fun p b => wait_sat fuel p b) pid a parent th h)
  | deleteProcess o => exact asked_onObj h (hdel o hp.1 hp.2)
  | deletePid pid =>
    show Asked _ _ s (deletePid pid s) Free Free
    unfold deletePid
    split
    · rename_i o ho
      refine Asked.cases (.refl s) (.unreg o s) fun hl => hdel o (hp o ho) ?_
      exact ((h hl).owner (dictGet_some ho)).1
    · exact .ok h (.refl s) fun _ => trivial
  | quit => exact asked_quitAny fuel h
  | waitProcessEvent pid b => exact asked_voidFree (asked_event1 fuel pid b h)
  | waitSignals sigs pid => exact asked_voidFree (asked_signals fuel sigs pid h)
  | waitSyscall o =>
    cases o with
    | none => exact asked_voidFree (asked_signals fuel _ none h)
    | some o => exact asked_onObj h (asked_signals fuel _ (some (s.heap o).pid) h)
  | traceFork => exact asked_options h rfl rfl rfl rfl rfl
  | traceExec => exact asked_options h rfl rfl rfl rfl rfl
  | traceClone => exact asked_options h rfl rfl rfl rfl rfl
  | enableSysgood => exact asked_options h rfl rfl rfl rfl rfl
  | attach o => exact asked_onObj h (asked_attach h (hm o rfl))
  | detach o => exact asked_onObj h ((asked_detach (o := o) h).more fun _ _ => trivial)
  | cont o n => exact asked_onObj h (asked_procCont n h fun hx => hx.elim)
  | syscall o n => exact asked_onObj h (asked_procSyscall n h fun hx => hx.elim)
  | singleStep o => exact absurd rfl (hs o)
  | kill o n => exact asked_onObj h (asked_kill n h)
  | setoptions o n =>
    refine asked_onObj h (Q := Free) (E := Free) ?_
    exact Asked.bind (Q' := Free) (asked_ptrace h (.setoptions o (s.heap o).pid n) rfl fun hx => hx.elim).free fun _ _ hI _ _ => asked_pure hI _ fun _ => trivial
  | terminate o w => exact asked_onObj h (asked_terminate fuel w h fun _ _ => hm o rfl)
  | waitExit o => exact asked_onObj h (asked_waitExit fuel fuel h fun _ => hm o rfl)
  | processTerminated o => exact asked_onObj h (Asked.bind (Q' := Free) (asked_notRunning o h) fun _ _ hI _ _ => asked_pure (Q := Free) (E := Free) hI _ fun _ => trivial)

theorem regularly_core (h : Regularly K s) : Lawful s.log → Core (fun _ => False) (fun _ => True) none s := by
  induction h with
  | new => exact fun _ => ⟨regInv_new, fun _ _ _ _ hx => hx.elim, fun _ ho => (by cases ho), fun _ ho => (by cases ho), fun _ hx => (by cases hx), fun _ he => (by cases he), fun _ _ _ => .inr trivial⟩
  | call h fuel op hop hd ih => exact (asked_op (K := K) fuel op ih hop).inv hd

/-- From now on. -/
theorem Core.fromNow (h : Core (fun _ => False) D none s) : Core (fun k => s.log.length ≤ k) D none s :=
  ⟨h.reg, fun before e after hx hB => (by
    have := congrArg List.length hx
    simp only [List.length_append, List.length_cons] at this
    omega), h.flag, h.full, h.fresh, h.seen, h.left⟩

end PT
