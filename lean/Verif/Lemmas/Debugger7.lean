import Verif.Lemmas.Debugger6

/-! Detach requests, quitting, killing, options. -/

namespace PT
open Spec

variable {K : Kern}

/-! ### detach requests -/

theorem detachCount_append (o : Nat) (l g : List Entry) :
    detachCount o (l ++ g) = detachCount o l + detachCount o g := by
  unfold detachCount; exact List.countP_append

/-- Number of detach requests for `o` made by a step. -/
def actDet (o : Nat) : Act → Nat
  | .detachRun q => if q = o then 1 else 0
  | .detachFail q => if q = o then 1 else 0
  | _ => 0

/-- What a step adds to the number of detach requests. -/
theorem Step.detachCount {s t : DSt} {a : Act} (h : Step K a s t) (o : Nat) :
    detachCount o t.log = detachCount o s.log + actDet o a := by
  rw [h.log, detachCount_append]
  congr 1
  cases h with
  | call c hc => cases c <;> first | rfl | exact hc.elim
  | detachRun q _ _ _ => simp [actCall, actDet, Spec.detachCount, isDetach, List.countP_cons]
  | detachFail q _ _ _ => simp [actCall, actDet, Spec.detachCount, isDetach, List.countP_cons]
  | _ => rfl

/-- At most one request per attachment; `n` counts the calls of `attach`. -/
structure DetInv (o n : Nat) (s : DSt) : Prop where
  new : s.next ≤ o → Spec.detachCount o s.log = 0 ∧ (s.heap o).isAttached = false
  once : Spec.detachCount o s.log + (if (s.heap o).isAttached then 1 else 0) ≤ 1 + n

theorem DetInv.congr {o n : Nat} {s t : DSt} (h : DetInv o n s) (hn : t.next = s.next)
    (hc : Spec.detachCount o t.log = Spec.detachCount o s.log)
    (ha : (t.heap o).isAttached = true → (s.heap o).isAttached = true) : DetInv o n t := by
  have ha' : (s.heap o).isAttached = false → (t.heap o).isAttached = false := by
    intro hf
    by_contra hne
    rw [ha (by simpa using hne)] at hf
    cases hf
  refine ⟨fun ho => ⟨by rw [hc]; exact (h.new (by omega)).1, ha' (h.new (by omega)).2⟩, ?_⟩
  rw [hc]
  have := h.once
  by_cases hb : (t.heap o).isAttached = true
  · rw [if_pos hb]
    rw [if_pos (ha hb)] at this
    exact this
  · rw [if_neg hb]
    omega

theorem attached_setProc {s : DSt} {q o : Nat} {p : Proc}
    (hp : p.isAttached = true → (s.heap q).isAttached = true) :
    ((setProc s q p).heap o).isAttached = true → (s.heap o).isAttached = true := by
  rw [setProc_heap]
  by_cases h : o = q
  · rw [if_pos h, h]; exact hp
  · rw [if_neg h]; exact id

theorem DetInv.detached {o n q : Nat} {s t : DSt} (h : DetInv o n s) (hn : t.next = s.next)
    (hq : (s.heap q).isAttached = true)
    (hh : ∀ i, t.heap i = (setProc s q { s.heap q with isAttached := false }).heap i)
    (hc : Spec.detachCount o t.log = Spec.detachCount o s.log + (if q = o then 1 else 0)) : DetInv o n t := by
  by_cases hqo : q = o
  · subst hqo
    rw [if_pos rfl] at hc
    have hlt : q < s.next := by
      by_contra hge
      rw [(h.new (by omega)).2] at hq
      cases hq
    have h1 := h.once
    rw [if_pos hq] at h1
    refine ⟨fun ho => by omega, ?_⟩
    have : (t.heap q).isAttached = false := by rw [hh, setProc_same]
    rw [this, if_neg (by simp)]
    omega
  · rw [if_neg hqo] at hc
    refine h.congr hn (by omega) ?_
    rw [hh]
    exact attached_setProc (by intro h; cases h)

theorem DetInv.step {o n : Nat} {s t : DSt} {a : Act} (ha : a ≠ .reattach o) (hs : Step K a s t) (h : DetInv o n s) :
    DetInv o n t := by
  have hc := hs.detachCount o
  cases hs with
  | call c _ => exact h.congr rfl hc id
  | attachFail q pid _ => exact h.congr rfl hc id
  | detachRun q hq hr _ => exact h.detached rfl hq (fun _ => rfl) hc
  | detachFail q hq hr _ => exact h.detached rfl hq (fun _ => rfl) hc
  | detachDead q hq hr => exact h.congr rfl hc (attached_setProc (by intro h; cases h))
  | stopRun q => exact h.congr rfl hc (attached_setProc id)
  | unattach q => exact h.congr rfl hc (attached_setProc (by intro h; cases h))
  | stopped q b => exact h.congr rfl hc (attached_setProc id)
  | sys q ss => exact h.congr rfl hc (attached_setProc id)
  | options bits a b c d => exact h.congr rfl hc id
  | delete q => exact h.congr rfl hc id
  | addAttached pid parent isThread _ =>
    by_cases ho : o = s.next
    · subst ho
      refine ⟨fun hle => absurd hle (by show ¬ (s.next + 1 ≤ s.next); omega), ?_⟩
      have hc : Spec.detachCount s.next _ = Spec.detachCount s.next s.log + 0 := hc
      rw [hc, (h.new (Nat.le_refl _)).1]
      split <;> omega
    · refine ⟨fun hle => ?_, ?_⟩
      · have hle : s.next + 1 ≤ o := hle
        refine ⟨by rw [hc]; exact (h.new (by omega)).1, ?_⟩
        show ((setProc s s.next _).heap o).isAttached = false
        rw [setProc_heap, if_neg ho]
        exact (h.new (by omega)).2
      · rw [hc]
        show _ + (if ((setProc s s.next _).heap o).isAttached then 1 else 0) ≤ 1 + n
        rw [setProc_heap, if_neg ho]
        exact h.once
  | addAttach pid parent isThread _ _ =>
    by_cases ho : o = s.next
    · subst ho
      refine ⟨fun hle => absurd hle (by show ¬ (s.next + 1 ≤ s.next); omega), ?_⟩
      have hc : Spec.detachCount s.next _ = Spec.detachCount s.next s.log + 0 := hc
      rw [hc, (h.new (Nat.le_refl _)).1]
      split <;> omega
    · refine ⟨fun hle => ?_, ?_⟩
      · have hle : s.next + 1 ≤ o := hle
        refine ⟨by rw [hc]; exact (h.new (by omega)).1, ?_⟩
        show ((setProc _ s.next _).heap o).isAttached = false
        rw [setProc_heap, if_neg ho]
        exact (h.new (by omega)).2
      · rw [hc]
        show _ + (if ((setProc (logCall K _ s) s.next _).heap o).isAttached then 1 else 0) ≤ 1 + n
        rw [setProc_heap, if_neg ho]
        exact h.once
  | reattach q _ _ =>
    have hq : q ≠ o := by intro hqo; exact ha (by rw [hqo])
    refine h.congr rfl hc ?_
    rw [setProc_heap, if_neg (Ne.symm hq)]
    exact id

/-- A process seen to end is never detached. -/
theorem ended_step {o : Nat} {s t : DSt} {a : Act} (hs : Step K a s t) (hr : (s.heap o).running = false) :
    Spec.detachCount o t.log = Spec.detachCount o s.log := by
  have hc := hs.detachCount o
  cases hs with
  | detachRun q hq hrun _ =>
    have h0 : (if q = o then 1 else 0) = 0 := if_neg (by intro h; rw [h, hr] at hrun; cases hrun)
    exact hc.trans (congrArg (Spec.detachCount o s.log + ·) h0)
  | detachFail q hq hrun _ =>
    have h0 : (if q = o then 1 else 0) = 0 := if_neg (by intro h; rw [h, hr] at hrun; cases hrun)
    exact hc.trans (congrArg (Spec.detachCount o s.log + ·) h0)
  | _ => exact hc

theorem ended_steps {P : DSt → Act → Prop} {o : Nat} {s t : DSt} (h : Steps K P s t) (ho : o < s.next)
    (hr : (s.heap o).running = false) : Spec.detachCount o t.log = Spec.detachCount o s.log := by
  induction h with
  | refl => rfl
  | step a h hp hs ih =>
    rw [ended_step hs (h.old.running o ho hr), ih]

/-! ### quitting -/

theorem waitActs_target {Z : Prop} {u : DSt} {a : Act} {c : Call} (ha : waitActs Z a) (hc : actCall u a = some c) :
    target c = none ∧ sends c = none ∧ isKill c = false := by
  unfold waitActs at ha
  split at ha <;> first
    | exact ha.elim
    | (injection hc with hc; subst hc; exact ⟨rfl, rfl, rfl⟩)
    | cases hc

/-- Labels of the steps made while ending `o`. -/
def endActs (o : Nat) : Act → Prop
  | .call (.cont q _ _) => q = o
  | .call (.kill q _ _) => q = o
  | .stopped _ false => True
  | a => waitActs True a

theorem endActs_wait (o : Nat) (a : Act) (h : waitActs True a) : endActs o a := by
  unfold endActs
  split
  · exact h.elim
  · exact h.elim
  · trivial
  · exact h

theorem endActs_target {o : Nat} {u : DSt} {a : Act} {c : Call} (ha : endActs o a) (hc : actCall u a = some c) :
    ∀ q, target c = some q → q = o := by
  unfold endActs at ha
  intro q hq
  split at ha
  · injection hc with hc; subst hc; injection hq with hq; rw [← hq]; exact ha
  · injection hc with hc; subst hc; injection hq with hq; rw [← hq]; exact ha
  · cases hc
  · rw [(waitActs_target ha hc).1] at hq; cases hq

theorem terminate_end (fuel o : Nat) (wait : Bool) (s : DSt) :
    Steps K (fun _ => endActs o) s (terminate K fuel o wait s).2 :=
  terminate_sat (S := Rules.plain K fun _ => endActs o) (fun _ a h => endActs_wait o a h) o
    (fun _ _ => Or.inr trivial) (fun _ _ _ => rfl) (fun _ => trivial) (fun _ _ => rfl) fuel wait s trivial

/-- The log of `terminate`. -/
theorem terminate_log (fuel o : Nat) (wait : Bool) (s : DSt) :
    ∃ g, (terminate K fuel o wait s).2.log = s.log ++ g ∧ (∀ e ∈ g, ∀ q, target e.call = some q → q = o) ∧
      (∀ e ∈ g, sends e.call ≠ none → (s.heap o).wasAttached = true) := by
  by_cases hw : (s.heap o).wasAttached = true
  · obtain ⟨g, hg, hq⟩ := (terminate_end (K := K) fuel o wait s).newLog
      (Q := fun e => ∀ q, target e.call = some q → q = o) fun u a c ha hc => endActs_target ha hc
    exact ⟨g, hg, hq, fun _ _ _ => hw⟩
  · have : terminate K fuel o wait s = (.ok true, s) := by
      unfold terminate
      rw [if_pos (by simp [hw])]
    rw [this]
    exact ⟨[], by simp, by simp, by simp⟩

theorem detach_log (o : Nat) (s : DSt) : ∃ g, (detach K o s).2.log = s.log ++ g ∧
    (∀ e ∈ g, ∀ q, target e.call = some q → q = o) ∧ ∀ e ∈ g, sends e.call = none := by
  rcases detach_cases (K := K) o s with ⟨_, h⟩ | ⟨_, _, h⟩ | ⟨_, _, _, h⟩ | ⟨_, _, e, _, h⟩
  · rw [h]; exact ⟨[], by simp, by simp, by simp⟩
  · rw [h]; exact ⟨[], by simp [unreg, setProc], by simp, by simp⟩
  · rw [h]
    refine ⟨[⟨.detach o (s.heap o).pid, _, _⟩], rfl, ?_, ?_⟩
    · intro e he q hq
      rw [List.mem_singleton.1 he] at hq
      injection hq with hq
      exact hq.symm
    · intro e he
      rw [List.mem_singleton.1 he]
      rfl
  · rw [h]
    refine ⟨[⟨.detach o (s.heap o).pid, _, _⟩], rfl, ?_, ?_⟩
    · intro e he q hq
      rw [List.mem_singleton.1 he] at hq
      injection hq with hq
      exact hq.symm
    · intro e he
      rw [List.mem_singleton.1 he]
      rfl

theorem handled_congr {s t : DSt} {os : List Nat} {g : List Entry} (h : Handled t os g)
    (hw : ∀ o ∈ os, (t.heap o).wasAttached = (s.heap o).wasAttached) : Handled s os g := by
  induction h with
  | stop os => exact .stop os
  | next own mine rest ih =>
    refine .next own ?_ (ih fun q hq => hw q (List.mem_cons_of_mem _ hq))
    intro e he hs
    rw [← hw _ List.mem_cons_self]
    exact mine e he hs

/-- `quit` handles one process after the other. -/
theorem quitLoop_handled (fuel : Nat) : ∀ (os : List Nat) (s : DSt), (∀ o ∈ os, o < s.next) →
    ∃ g, (quitLoop K fuel os s).2.log = s.log ++ g ∧ Handled s os g := by
  intro os
  induction os with
  | nil => intro s _; exact ⟨[], by simp [quitLoop, Py.pure], .stop []⟩
  | cons o os ih =>
    intro s hos
    obtain ⟨g1, hg1, hown, hmine⟩ := terminate_log (K := K) fuel o true s
    have hold := (terminate_end (K := K) fuel o true s).old
    unfold quitLoop Py.bind
    generalize terminate K fuel o true s = x at hg1 hold
    obtain ⟨r1, s1⟩ := x
    have hone : ∀ g, (∀ e ∈ g, ∀ q, target e.call = some q → q = o) →
        (∀ e ∈ g, sends e.call ≠ none → (s.heap o).wasAttached = true) → Handled s (o :: os) g := by
      intro g h1 h2
      have := Handled.next (s := s) h1 h2 (.stop os)
      rwa [List.append_nil] at this
    cases r1 with
    | error e => exact ⟨g1, hg1, hone g1 hown hmine⟩
    | ok b =>
      obtain ⟨g2, hg2, hown2, hsend2⟩ := detach_log (K := K) o s1
      have hold2 : Old s1 (detach K o s1).2 :=
        (detach_sat (S := Rules.plain K fun _ _ => True) o (fun _ => trivial) (fun _ => trivial)
          (fun _ => trivial) s1 trivial).old
      dsimp only
      generalize detach K o s1 = y at hg2 hold2 ⊢
      obtain ⟨r2, s2⟩ := y
      have hg12 : s2.log = s.log ++ (g1 ++ g2) := by
        have h1 : s1.log = s.log ++ g1 := hg1
        have h2 : s2.log = s1.log ++ g2 := hg2
        rw [h2, h1, List.append_assoc]
      have hown' : ∀ e ∈ g1 ++ g2, ∀ q, target e.call = some q → q = o := by
        intro e he
        rcases List.mem_append.1 he with he | he
        · exact hown e he
        · exact hown2 e he
      have hmine' : ∀ e ∈ g1 ++ g2, sends e.call ≠ none → (s.heap o).wasAttached = true := by
        intro e he hs
        rcases List.mem_append.1 he with he | he
        · exact hmine e he hs
        · exact absurd (hsend2 e he) hs
      cases r2 with
      | error e => exact ⟨g1 ++ g2, hg12, hone _ hown' hmine'⟩
      | ok _ =>
        have hold3 := hold.trans hold2
        have hlt : ∀ q ∈ os, q < s2.next := fun q hq =>
          Nat.lt_of_lt_of_le (hos q (List.mem_cons_of_mem _ hq)) hold3.next
        obtain ⟨g3, hg3, hh⟩ := ih s2 hlt
        refine ⟨(g1 ++ g2) ++ g3, ?_, ?_⟩
        · rw [← List.append_assoc, ← hg12]; exact hg3
        · exact .next hown' hmine' (handled_congr hh fun q hq => hold3.was q (hos q (List.mem_cons_of_mem _ hq)))

theorem terminate_wait_true (fuel o : Nat) (s t : DSt) (b : Bool) (h : terminate K fuel o true s = (.ok b, t)) :
    b = true := by
  unfold terminate at h
  by_cases hc : (!(s.heap o).running || !(s.heap o).wasAttached) = true
  · rw [if_pos hc] at h; injection h with h _; injection h with h; exact h.symm
  · rw [if_neg hc] at h
    simp only [Bool.not_true, Bool.and_false, Bool.false_eq_true, if_false] at h
    unfold Py.bind at h
    generalize terminateKill K o s = x at h
    obtain ⟨r, s1⟩ := x
    cases r with
    | error e => cases h
    | ok done =>
      dsimp only at h
      generalize (if done = true then Py.pure () else waitExit K fuel o fuel) s1 = x at h
      obtain ⟨r2, s2⟩ := x
      cases r2 with
      | error e => cases h
      | ok _ =>
        dsimp only at h
        rw [notRunning_run] at h
        injection h with h _
        injection h with h
        exact h.symm

theorem gone_attached (o : Nat) (s : DSt) (ha : (s.heap o).isAttached = true) :
    (gone o s).list = s.list.erase o ∧ (gone o s).next = s.next ∧ ((gone o s).heap o).isAttached = false ∧
    ∀ i, ((gone o s).heap i).pid = (s.heap i).pid ∧
      (i ≠ o → ((gone o s).heap i).isAttached = (s.heap i).isAttached) := by
  have h1 : gone o s = unreg o (setProc s o { s.heap o with running := false, isAttached := false }) := by
    unfold gone; rw [if_pos ha]
  rw [h1]
  refine ⟨rfl, rfl, ?_, ?_⟩
  · show ((setProc s o _).heap o).isAttached = false
    rw [setProc_same]
  · intro i
    show ((setProc s o _).heap i).pid = _ ∧ (_ → ((setProc s o _).heap i).isAttached = _)
    rw [setProc_heap]
    by_cases hi : i = o
    · rw [if_pos hi, hi]; exact ⟨rfl, fun h => absurd rfl h⟩
    · rw [if_neg hi]; exact ⟨rfl, fun _ => rfl⟩

/-- One round of `quit` that returns unregisters exactly its process. -/
theorem quitRound (hz : NoZero K) (fuel o : Nat) (s s1 s2 : DSt) (b : Bool) (hr : RegInv s)
    (ho : o ∈ s.list) (hp : (s.heap o).pid ≠ 0) (ha : (s.heap o).isAttached = true)
    (h1 : terminate K fuel o true s = (.ok b, s1)) (h2 : detach K o s1 = (.ok (), s2)) :
    s2.list = s.list.erase o ∧ s2.next = s.next ∧
    ∀ i, (s2.heap i).pid = (s.heap i).pid ∧ (i ≠ o → (s2.heap i).isAttached = (s.heap i).isAttached) := by
  have hb := terminate_wait_true fuel o s s1 b h1
  subst hb
  rcases terminate_ok hz fuel o true s s1 hr ho hp h1 with ⟨_, hs⟩ | ⟨u, hu, hs⟩
  · subst hs
    have hset : ∀ i, ((setProc s1 o { s1.heap o with isAttached := false }).heap i).pid = (s1.heap i).pid ∧
        (i ≠ o → ((setProc s1 o { s1.heap o with isAttached := false }).heap i).isAttached =
          (s1.heap i).isAttached) := by
      intro i
      rw [setProc_heap]
      by_cases hi : i = o
      · rw [if_pos hi, hi]; exact ⟨rfl, fun h => absurd rfl h⟩
      · rw [if_neg hi]; exact ⟨rfl, fun _ => rfl⟩
    rcases detach_cases (K := K) o s1 with ⟨hf, _⟩ | ⟨_, _, h⟩ | ⟨_, _, _, h⟩ | ⟨_, _, e, _, h⟩
    · rw [ha] at hf; cases hf
    · rw [h] at h2; injection h2 with _ h2; rw [← h2]; exact ⟨rfl, rfl, hset⟩
    · rw [h] at h2; injection h2 with _ h2; rw [← h2]; exact ⟨rfl, rfl, hset⟩
    · rw [h] at h2; cases h2
  · have hau : (u.heap o).isAttached = true := by rw [hu.att]; exact ha
    obtain ⟨g1, g2, g3, g4⟩ := gone_attached o u hau
    rw [detach_noop K o s1 (by rw [hs]; exact g3)] at h2
    injection h2 with _ h2
    subst h2
    rw [hs]
    refine ⟨by rw [g1, hu.list], by rw [g2, hu.next], fun i => ⟨by rw [(g4 i).1, hu.pid], fun hi => ?_⟩⟩
    rw [(g4 i).2 hi, hu.att]

theorem quitLoop_empty (hz : NoZero K) (fuel : Nat) : ∀ (os : List Nat) (s t : DSt), RegInv s →
    (∀ i, i < s.next → (s.heap i).pid ≠ 0) → os.Nodup → (∀ o, o ∈ os ↔ o ∈ s.list) →
    (∀ o ∈ s.list, (s.heap o).isAttached = true) →
    quitLoop K fuel os s = (.ok (), t) → RegInv t ∧ t.list = [] := by
  intro os
  induction os with
  | nil =>
    intro s t hr _ _ hm _ h
    injection h with _ h
    subst h
    refine ⟨hr, ?_⟩
    rw [List.eq_nil_iff_forall_not_mem]
    intro o ho
    cases (hm o).2 ho
  | cons o os ih =>
    intro s t hr hp hnd hm hatt h
    have ho : o ∈ s.list := (hm o).1 List.mem_cons_self
    unfold quitLoop Py.bind at h
    have hreg1 : RegInv (terminate K fuel o true s).2 :=
      RegInv.steps ((terminate_end (K := K) fuel o true s).mono fun t a h => by
        cases a <;> first | exact trivial | exact h.elim) hr
    rcases h1 : terminate K fuel o true s with ⟨r1, s1⟩
    rw [h1] at h hreg1
    cases r1 with
    | error e => cases h
    | ok b =>
      dsimp only at h
      have hreg2 : RegInv (detach K o s1).2 :=
        RegInv.steps (detach_sat (S := Rules.plain K regActs) o (fun _ => trivial) (fun _ => trivial)
          (fun _ => trivial) s1 trivial) hreg1
      rcases h2 : detach K o s1 with ⟨r2, s2⟩
      rw [h2] at h hreg2
      cases r2 with
      | error e => cases h
      | ok _ =>
        obtain ⟨e1, e2, e3⟩ := quitRound hz fuel o s s1 s2 b hr ho (hp o (hr.alloc o ho)) (hatt o ho) h1 h2
        have hmem : ∀ i, i ∈ s2.list ↔ i ≠ o ∧ i ∈ s.list := by
          intro i
          rw [e1, hr.nodup.mem_erase_iff]
        refine ih s2 t hreg2 ?_ (List.nodup_cons.1 hnd).2 ?_ ?_ h
        · intro i hi
          rw [(e3 i).1]
          exact hp i (by omega)
        · intro i
          rw [hmem, ← hm i]
          constructor
          · intro hi
            exact ⟨by intro he; rw [he] at hi; exact (List.nodup_cons.1 hnd).1 hi, List.mem_cons_of_mem _ hi⟩
          · rintro ⟨hne, hi⟩
            rcases List.mem_cons.1 hi with hi | hi
            · exact absurd hi hne
            · exact hi
        · intro i hi
          have := (hmem i).1 hi
          rw [(e3 i).2 this.1]
          exact hatt i this.2

end PT
