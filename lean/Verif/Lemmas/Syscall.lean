import Verif.Lemmas.Debugger8
import Verif.Spec.Syscall
import Verif.Lemmas.Py

/-! `SyscallState`: its attributes are changed by its own methods only. -/

namespace PT
open Spec
variable {K : Kern}

/-- Steps other than those of the `SyscallState` of `o` keep it. -/
theorem Step.ss {s t : DSt} {a : Act} {o : Nat} (h : Step K a s t) (ho : o < s.next) (ha : a ≠ .sys o) :
    (t.heap o).ss = (s.heap o).ss := by
  have hset : ∀ (q : Nat) (p : Proc) (s' : DSt), (∀ i, (s'.heap i) = s.heap i) → p.ss = (s.heap q).ss →
      ((setProc s' q p).heap o).ss = (s.heap o).ss := by
    intro q p s' hs' hp
    rw [setProc_heap]
    by_cases hq : o = q
    · rw [if_pos hq, hq]; exact hp
    · rw [if_neg hq, hs']
  cases h with
  | call c _ => rfl
  | attachFail q pid _ => rfl
  | detachRun q _ _ _ => exact hset q _ s (fun _ => rfl) rfl
  | detachDead q _ _ => exact hset q _ s (fun _ => rfl) rfl
  | detachFail q _ _ _ => exact hset q _ s (fun _ => rfl) rfl
  | stopRun q => exact hset q _ s (fun _ => rfl) rfl
  | unattach q => exact hset q _ s (fun _ => rfl) rfl
  | stopped q b => exact hset q _ s (fun _ => rfl) rfl
  | sys q ss =>
    have hq : o ≠ q := fun h => ha (by rw [h])
    show ((setProc s q _).heap o).ss = _
    rw [setProc_heap, if_neg hq]
  | addAttached pid parent isThread _ =>
    show ((setProc s s.next _).heap o).ss = _
    rw [setProc_heap, if_neg (by omega)]
  | addAttach pid parent isThread _ _ =>
    show ((setProc (logCall K _ s) s.next _).heap o).ss = _
    rw [setProc_heap, if_neg (by omega)]
    rfl
  | options bits a b c d => rfl
  | delete q => rfl
  | reattach q _ _ => exact hset q _ (logCall K (.attach q (s.heap q).pid) s) (fun _ => rfl) rfl

theorem Steps.ss {P : DSt → Act → Prop} {s t : DSt} {o : Nat} (h : Steps K P s t) (ho : o < s.next)
    (hP : ∀ u, ¬ P u (.sys o)) : (t.heap o).ss = (s.heap o).ss := by
  induction h with
  | refl => rfl
  | step a h hp hs ih =>
    rw [hs.ss (Nat.lt_of_lt_of_le ho h.old.next) (fun ha => hP _ (ha ▸ hp)), ih]

/-- Labels without change of a `SyscallState`. -/
def noSys : Act → Prop
  | .sys _ => False
  | _ => True

theorem noSys_plain {Z : Prop} (a : Act) (h : plainActs Z a) : noSys a := by
  cases a <;> first | exact h.elim | exact trivial

theorem noSys_wait {Z : Prop} (a : Act) (h : waitActs Z a) : noSys a := noSys_plain a (plain_of_wait a h)

theorem runOp_noSys (fuel : Nat) (op : Op) (s : DSt) : Steps K (fun _ => noSys) s (runOp K fuel op s).2 :=
  runOp_steps' fuel op s (fun _ a h => noSys_plain a h) (fun _ _ _ => trivial) (fun _ _ _ _ => trivial)
    (fun _ _ _ => trivial) (fun _ _ => trivial)

/-- Labels of the steps of a syscall event of `q`. -/
def sysActs (q : Nat) : Act → Prop
  | .sys o => o = q
  | .call (.syscall o _ n) => o = q ∧ n = 0
  | .stopped o false => o = q
  | .call (.inspect o _) => o = q
  | .call .sleep => True
  | a => waitActs True a

theorem sysActs_wait (q : Nat) (a : Act) (h : waitActs True a) : sysActs q a := by
  unfold sysActs
  split <;> first | exact h | exact h.elim

theorem updSys_steps {P : DSt → Act → Prop} (o : Nat) (f : SysState → SysState) (s : DSt) (h : P s (.sys o)) :
    Steps K P s (updSys o f s).2 := .one h (.sys o _)

theorem waitSignals_wait {P : DSt → Act → Prop} (hw : ∀ s a, waitActs True a → P s a)
    (hsl : ∀ s, P s (.call .sleep)) (fuel : Nat) (signals : List Nat) (pid : Option Nat) (s : DSt) :
    Steps K P s (waitSignals K fuel signals pid s).2 :=
  waitSignals_sat (S := Rules.plain K P) hw hsl (fun _ _ _ _ => Or.inr (by exact trivial)) fuel signals pid
    (Or.inr (by exact trivial)) s (by exact trivial)

theorem sysEnter_steps (C : SysCfg) (q : Nat) (s : DSt) :
    Steps K (fun _ => sysActs q) s (sysEnter K C q s).2 := by
  let S := Rules.plain K fun _ => sysActs q
  have hT : ∀ t, S.I t := fun _ => trivial
  have hins : ∀ (pid : Nat) (t : DSt), (t.heap q).pid = pid →
      Steps K S.P t (ptraceCall K (.inspect q pid) t).2 := fun pid t h =>
    ptraceCall_sat (S := S) (c := .inspect q pid) (fun _ => rfl) t h.symm
  refine steps_bind (S := S) (hT s) (hins _ s rfl) fun regs t1 h1 _ => ?_
  refine steps_bind (S := S) (hT t1) (updSys_steps q _ t1 rfl) fun _ t2 h2 _ => ?_
  have hp2 : (t2.heap q).pid = (s.heap q).pid := by
    rw [ptraceCall_run] at h1
    have h1 : logCall K _ s = t1 := congrArg Prod.snd h1
    have h2 : setProc t1 q _ = t2 := congrArg Prod.snd h2
    rw [← h2, ← h1, setProc_same]
    rfl
  refine steps_bind (S := S) (hT t2) ?_ fun _ t3 _ _ => ?_
  · split
    · exact steps_bind (S := S) (hT t2) (hins _ t2 hp2) fun _ t _ _ => .refl t
    · exact updSys_steps q _ t2 rfl
  · exact steps_bind (S := S) (hT t3) (updSys_steps q _ t3 rfl) fun _ t _ _ => .refl t

theorem sysResult_steps (q : Nat) (s : DSt) : Steps K (fun _ => sysActs q) s (sysResult K q s).2 := by
  let S := Rules.plain K fun _ => sysActs q
  have hT : ∀ t, S.I t := fun _ => trivial
  unfold sysResult
  cases (s.heap q).ss.syscall with
  | none => exact .refl s
  | some c =>
    exact steps_bind (S := S) (hT s) (ptraceCall_sat (S := S) (c := .inspect q _) (fun _ => rfl) s rfl)
      fun _ t _ _ => updSys_steps q _ t rfl

/-- Labels of the steps made for the trap after `execve`. -/
def trapActs (q : Nat) : Act → Prop
  | .call (.syscall o _ n) => o = q ∧ n = 0
  | .stopped o false => o = q
  | .call .sleep => True
  | a => waitActs True a

theorem trapActs_wait (q : Nat) (a : Act) (h : waitActs True a) : trapActs q a := by
  unfold trapActs
  split <;> first | exact h | exact h.elim

theorem trapActs_sys (q : Nat) (a : Act) (h : trapActs q a) : sysActs q a := by
  unfold trapActs at h
  split at h
  · exact h
  · exact h
  · exact h
  · exact sysActs_wait q a h

theorem sysExecTrap_trap (fuel q : Nat) (s : DSt) : Steps K (fun _ => trapActs q) s (sysExecTrap K fuel q s).2 := by
  let S := Rules.plain K fun _ => trapActs q
  have hT : ∀ t, S.I t := fun _ => trivial
  unfold sysExecTrap
  split
  · refine steps_bind (S := S) (hT s) (procSyscall_sat (S := S) q 0 (fun _ _ => ⟨rfl, rfl⟩) (fun _ => rfl) s (hT s))
      fun _ t _ _ => ?_
    exact steps_bind (S := S) (hT t) (waitSignals_wait (fun _ a h => trapActs_wait q a h) (fun _ => trivial) _ _ _ t)
      fun _ u _ _ => .refl u
  · exact .refl s

theorem sysExit_steps (fuel q : Nat) (s : DSt) : Steps K (fun _ => sysActs q) s (sysExit K fuel q s).2 := by
  let S := Rules.plain K fun _ => sysActs q
  have hT : ∀ t, S.I t := fun _ => trivial
  refine steps_bind (S := S) (hT s) (sysResult_steps q s) fun _ t _ _ => ?_
  refine steps_bind (S := S) (hT t) ((sysExecTrap_trap fuel q t).mono fun _ a h => trapActs_sys q a h)
    fun _ u _ _ => ?_
  exact steps_bind (S := S) (hT u) (updSys_steps q _ u rfl) fun _ v _ _ => .refl v

theorem sysEvent_steps (fuel : Nat) (C : SysCfg) (q : Nat) (s : DSt) :
    Steps K (fun _ => sysActs q) s (sysEvent K fuel C q s).2 := by
  unfold sysEvent
  split
  · exact sysExit_steps fuel q s
  · exact sysEnter_steps C q s

theorem sysActs_other {q o : Nat} (h : q ≠ o) : ¬ sysActs q (.sys o) := fun h' => h h'.symm

/-- Syscall events of other objects keep the `SyscallState` of `o`. -/
theorem sysEvent_other (fuel : Nat) (C : SysCfg) (q o : Nat) (s : DSt) (ho : o < s.next) (hq : q ≠ o) :
    ((sysEvent K fuel C q s).2.heap o).ss = (s.heap o).ss :=
  (sysEvent_steps fuel C q s).ss ho fun _ => sysActs_other hq

theorem updSys_ss (o : Nat) (f : SysState → SysState) (s : DSt) :
    ((updSys o f s).2.heap o).ss = f (s.heap o).ss := by
  show ((setProc s o _).heap o).ss = _
  rw [setProc_same]

theorem updSys_ss_other (o q : Nat) (f : SysState → SysState) (s : DSt) (h : o ≠ q) :
    ((updSys q f s).2.heap o).ss = (s.heap o).ss := by
  show ((setProc s q _).heap o).ss = _
  rw [setProc_heap, if_neg h]

theorem ptraceCall_heap (c : Call) (s : DSt) : (ptraceCall K c s).2.heap = s.heap := by
  rw [ptraceCall_run]; rfl

/-- The value of a `ptrace` request that succeeded is the reply of the kernel. -/
theorem ptraceCall_ok {c : Call} {s t : DSt} {v : Nat} (h : ptraceCall K c s = (.ok v, t)) :
    (∃ st, K s.log c = .ok v st) ∧ t = logCall K c s := by
  rw [ptraceCall_run] at h
  injection h with h1 h2
  exact ⟨ptraceRes_ok h1, h2.symm⟩

/-- The start of a system call. -/
theorem sysEnter_ok (C : SysCfg) (o : Nat) (s t : DSt) (r : Option SysObj) (h : sysEnter K C o s = (.ok r, t)) :
    ∃ regs st, K s.log (.inspect o (s.heap o).pid) = .ok regs st ∧
      r = (if (s.heap o).ss.hasCallback && C.ignore (C.name regs) then none
        else some ⟨s.log.length, regs, none⟩) ∧
      (t.heap o).ss = { (s.heap o).ss with syscall := r, name := some (C.name regs), nextExit := true } := by
  obtain ⟨regs, t1, h1, h⟩ := Py.ok_of_bind h
  obtain ⟨⟨st, hk⟩, ht1⟩ := ptraceCall_ok h1
  obtain ⟨_, t2, h2, h⟩ := Py.ok_of_bind h
  have h2s : (t2.heap o).ss =
      { (s.heap o).ss with syscall := some ⟨s.log.length, regs, none⟩, name := some (C.name regs) } := by
    have := updSys_ss o (fun ss => { ss with syscall := some ⟨s.log.length, regs, none⟩, name := some (C.name regs) }) t1
    rw [h2, ht1] at this
    exact this
  obtain ⟨_, t3, h3, h⟩ := Py.ok_of_bind h
  obtain ⟨_, t4, h4, h⟩ := Py.ok_of_bind h
  injection h with hr ht
  injection hr with hr
  subst ht
  have h4s : (t4.heap o).ss = { (t3.heap o).ss with nextExit := true } := by
    have := updSys_ss o (fun ss => { ss with nextExit := true }) t3
    rw [h4] at this
    exact this
  refine ⟨regs, st, hk, ?_⟩
  by_cases hc : ((s.heap o).ss.hasCallback && C.ignore (C.name regs)) = true
  · have hc' : (!(s.heap o).ss.hasCallback || !C.ignore (C.name regs)) = false := by
      revert hc; cases (s.heap o).ss.hasCallback <;> cases C.ignore (C.name regs) <;> decide
    rw [if_neg (by rw [hc']; decide)] at h3
    have h3s : (t3.heap o).ss = { (t2.heap o).ss with syscall := none } := by
      have := updSys_ss o (fun ss => { ss with syscall := none }) t2
      rw [h3] at this
      exact this
    rw [if_pos hc]
    rw [h4s, h3s, h2s] at hr
    refine ⟨hr.symm, ?_⟩
    rw [h4s, h3s, h2s, ← hr]
  · have hc' : (!(s.heap o).ss.hasCallback || !C.ignore (C.name regs)) = true := by
      revert hc; cases (s.heap o).ss.hasCallback <;> cases C.ignore (C.name regs) <;> decide
    rw [if_pos hc'] at h3
    obtain ⟨_, t5, h5, h3⟩ := Py.ok_of_bind h3
    obtain ⟨_, ht5⟩ := ptraceCall_ok h5
    have h3s : t3.heap = t2.heap := by
      injection h3 with _ h3
      rw [← h3, ht5]; rfl
    rw [if_neg hc]
    rw [h4s, h3s, h2s] at hr
    refine ⟨hr.symm, ?_⟩
    rw [h4s, h3s, h2s, ← hr]

/-- A start that fails is not a start. -/
theorem sysEnter_error (C : SysCfg) (o : Nat) (s t : DSt) (e : Exc) (h : sysEnter K C o s = (.error e, t)) :
    (t.heap o).ss.nextExit = (s.heap o).ss.nextExit := by
  rcases Py.error_of_bind h with h | ⟨regs, t1, h1, h⟩
  · have := congrArg (fun x => (x.2.heap o).ss.nextExit) h
    rw [ptraceCall_run] at this
    exact this.symm
  have ht1 := (ptraceCall_ok h1).2
  rcases Py.error_of_bind h with h | ⟨_, t2, h2, h⟩
  · cases h
  have h2s : (t2.heap o).ss.nextExit = (s.heap o).ss.nextExit := by
    have := updSys_ss o (fun ss => { ss with syscall := some ⟨s.log.length, regs, none⟩, name := some (C.name regs) }) t1
    rw [h2, ht1] at this
    rw [this]
    rfl
  rcases Py.error_of_bind h with h | ⟨_, t3, h3, h⟩
  · split at h
    · rcases Py.error_of_bind h with h | ⟨_, t5, h5, h⟩
      · have := congrArg (fun x => (x.2.heap o).ss.nextExit) h
        rw [ptraceCall_run] at this
        rw [← h2s]
        exact this.symm
      · cases h
    · cases h
  rcases Py.error_of_bind h with h | ⟨_, t4, h4, h⟩
  · cases h
  · cases h

/-- The result of a system call is read at its end. -/
theorem sysResult_out (o : Nat) (s t : DSt) (r : Except Exc Unit) (h : sysResult K o s = (r, t)) :
    (∀ c, (s.heap o).ss.syscall = some c →
      (∃ v st, K s.log (.inspect o (s.heap o).pid) = .ok v st ∧ r = .ok () ∧
        (t.heap o).ss = { (s.heap o).ss with syscall := some { c with result := some v } }) ∨
      ((∃ e, r = .error e) ∧ (t.heap o).ss = (s.heap o).ss)) ∧
    ((s.heap o).ss.syscall = none → r = .ok () ∧ t = s) := by
  unfold sysResult at h
  cases hc : (s.heap o).ss.syscall with
  | none =>
    rw [hc] at h
    injection h with h1 h2
    exact ⟨fun c hc => (by cases hc), fun _ => ⟨h1.symm, h2.symm⟩⟩
  | some c =>
    rw [hc] at h
    refine ⟨fun c' hc' => ?_, fun hc => by cases hc⟩
    injection hc' with hc'
    subst hc'
    unfold Py.bind at h
    rw [ptraceCall_run] at h
    cases hr : ptraceRes (K s.log (.inspect o (s.heap o).pid)) with
    | ok v =>
      rw [hr] at h
      obtain ⟨st, hk⟩ := ptraceRes_ok hr
      injection h with h1 h2
      refine Or.inl ⟨v, st, hk, h1.symm, ?_⟩
      rw [← h2, setProc_same]
      rfl
    | error e =>
      rw [hr] at h
      injection h with h1 h2
      exact Or.inr ⟨⟨e, h1.symm⟩, by rw [← h2]; rfl⟩

theorem sysExecTrap_ss (fuel o : Nat) (s : DSt) (ho : o < s.next) :
    ((sysExecTrap K fuel o s).2.heap o).ss = (s.heap o).ss :=
  (sysExecTrap_trap fuel o s).ss ho fun _ h => h

theorem sysResult_next (o : Nat) (s : DSt) : s.next ≤ (sysResult K o s).2.next := (sysResult_steps o s).old.next

/-- The end of a system call. -/
theorem sysExit_ok (fuel o : Nat) (s t : DSt) (ho : o < s.next) (r : Option SysObj)
    (h : sysExit K fuel o s = (.ok r, t)) :
    (∀ c, (s.heap o).ss.syscall = some c → ∃ v st, K s.log (.inspect o (s.heap o).pid) = .ok v st ∧
      r = some { c with result := some v }) ∧
    ((s.heap o).ss.syscall = none → r = none) ∧
    (t.heap o).ss = { (s.heap o).ss with syscall := none, name := none, nextExit := false } := by
  obtain ⟨_, t1, h1, h⟩ := Py.ok_of_bind h
  obtain ⟨_, t2, h2, h⟩ := Py.ok_of_bind h
  have hn : o < t1.next := by
    have := sysResult_next (K := K) o s
    rw [h1] at this
    exact Nat.lt_of_lt_of_le ho this
  have h2s : (t2.heap o).ss = (t1.heap o).ss := by
    have := sysExecTrap_ss (K := K) fuel o t1 hn
    rw [h2] at this
    exact this
  have hr : (t2.heap o).ss.syscall = r := by injection h with h1 _; injection h1
  have ht : (t.heap o).ss = { (t2.heap o).ss with syscall := none, name := none, nextExit := false } := by
    have : t = (sysClear o t2).2 := by injection h with _ h2; exact h2.symm
    rw [this]
    exact updSys_ss o _ t2
  obtain ⟨hs, hn'⟩ := sysResult_out o s t1 _ h1
  cases hc : (s.heap o).ss.syscall with
  | none =>
    obtain ⟨_, rfl⟩ := hn' hc
    refine ⟨fun c hc => (by cases hc), fun _ => (by rw [← hr, h2s, hc]), ?_⟩
    rw [ht, h2s]
  | some c =>
    rcases hs c hc with ⟨v, st, hk, _, hss⟩ | ⟨⟨e, he⟩, _⟩
    · refine ⟨fun c' hc' => ?_, fun hc => (by cases hc), ?_⟩
      · injection hc' with hc'
        subst hc'
        exact ⟨v, st, hk, by rw [← hr, h2s, hss]⟩
      · rw [ht, h2s, hss]
    · cases he

/-- An end that fails is still to come; the object is the same. -/
theorem sysExit_error (fuel o : Nat) (s t : DSt) (ho : o < s.next) (e : Exc)
    (h : sysExit K fuel o s = (.error e, t)) :
    (t.heap o).ss.nextExit = (s.heap o).ss.nextExit ∧
    ((s.heap o).ss.syscall = none → (t.heap o).ss.syscall = none) ∧
    (∀ c, (s.heap o).ss.syscall = some c → ∃ v, (t.heap o).ss.syscall = some { c with result := v }) := by
  have step : ∀ (r : Except Exc Unit) (t1 : DSt), sysResult K o s = (r, t1) →
      (t1.heap o).ss.nextExit = (s.heap o).ss.nextExit ∧
      ((s.heap o).ss.syscall = none → (t1.heap o).ss.syscall = none) ∧
      (∀ c, (s.heap o).ss.syscall = some c → ∃ v, (t1.heap o).ss.syscall = some { c with result := v }) := by
    intro r t1 h1
    obtain ⟨hs, hn'⟩ := sysResult_out o s t1 _ h1
    cases hc : (s.heap o).ss.syscall with
    | none =>
      obtain ⟨_, rfl⟩ := hn' hc
      exact ⟨rfl, fun _ => hc, fun c hc => by cases hc⟩
    | some c =>
      rcases hs c hc with ⟨v, st, hk, _, hss⟩ | ⟨_, hss⟩
      · rw [hss]
        refine ⟨rfl, fun hc => (by cases hc), fun c' hc' => ?_⟩
        injection hc' with hc'
        subst hc'
        exact ⟨some v, rfl⟩
      · rw [hss]
        refine ⟨rfl, fun hc => (by cases hc), fun c' hc' => ?_⟩
        injection hc' with hc'
        subst hc'
        exact ⟨c.result, hc⟩
  rcases Py.error_of_bind h with h | ⟨_, t1, h1, h⟩
  · exact step _ _ h
  have hn : o < t1.next := by
    have := sysResult_next (K := K) o s
    rw [h1] at this
    exact Nat.lt_of_lt_of_le ho this
  rcases Py.error_of_bind h with h | ⟨_, t2, h2, h⟩
  · have h2s : (t.heap o).ss = (t1.heap o).ss := by
      have := sysExecTrap_ss (K := K) fuel o t1 hn
      rw [h] at this
      exact this
    rw [h2s]
    exact step _ _ h1
  · rcases Py.error_of_bind h with h | ⟨_, t3, h3, h⟩
    · cases h
    · cases h

theorem updSys_log (o : Nat) (f : SysState → SysState) (s : DSt) : (updSys o f s).2.log = s.log := rfl

/-- The registers are read at the start. -/
theorem sysEnter_grows (C : SysCfg) (o : Nat) (s t : DSt) (r : Option SysObj) (h : sysEnter K C o s = (.ok r, t)) :
    s.log.length < t.log.length := by
  obtain ⟨regs, t1, h1, h⟩ := Py.ok_of_bind h
  have ht1 := (ptraceCall_ok h1).2
  have hg : t1.log.length = s.log.length + 1 := by
    rw [ht1]; show (s.log ++ [_]).length = _; rw [List.length_append]; rfl
  obtain ⟨_, t2, h2, h⟩ := Py.ok_of_bind h
  have hl2 : t2.log = t1.log := by injection h2 with _ h2; rw [← h2]; rfl
  obtain ⟨_, t3, h3, h⟩ := Py.ok_of_bind h
  have hl3 : t2.log.length ≤ t3.log.length := by
    split at h3
    · obtain ⟨_, t5, h5, h3⟩ := Py.ok_of_bind h3
      injection h3 with _ h3
      rw [← h3, (ptraceCall_ok h5).2]
      show _ ≤ (t2.log ++ [_]).length
      rw [List.length_append]; omega
    · injection h3 with _ h3
      rw [← h3]; exact Nat.le_refl _
  obtain ⟨_, t4, h4, h⟩ := Py.ok_of_bind h
  have hl4 : t4.log = t3.log := by injection h4 with _ h4; rw [← h4]; rfl
  injection h with _ h
  rw [← h, hl4]
  rw [hl2] at hl3
  omega

/-- Where the reports of object `o` stand. -/
structure SysInv (o : Nat) (rs : List (Option SysObj)) (t : DSt) : Prop where
  alternate : Alternate (t.heap o).ss.nextExit rs
  stored : (t.heap o).ss.nextExit = true → ∃ rs' a, rs = rs' ++ [a] ∧
    match a with
    | none => (t.heap o).ss.syscall = none
    | some x => ∃ v, (t.heap o).ss.syscall = some { x with result := v }
  old : ∀ y, some y ∈ rs → y.ident < t.log.length

theorem SysInv.congr {o : Nat} {rs : List (Option SysObj)} {t u : DSt} (h : SysInv o rs t)
    (h1 : (u.heap o).ss.nextExit = (t.heap o).ss.nextExit)
    (h2 : (u.heap o).ss.syscall = (t.heap o).ss.syscall) (h3 : t.log.length ≤ u.log.length) : SysInv o rs u :=
  ⟨by rw [h1]; exact h.alternate, by rw [h1, h2]; exact h.stored,
    fun y hy => Nat.lt_of_lt_of_le (h.old y hy) h3⟩

theorem Old.length {s t : DSt} (h : Old s t) : s.log.length ≤ t.log.length := by
  obtain ⟨g, hg⟩ := h.log
  rw [hg, List.length_append]
  omega

theorem sysTrace_inv {C : SysCfg} {o : Nat} {s t : DSt} {rs : List (Option SysObj)} (h : SysTrace K C o s rs t)
    (ho : o < s.next) (hs : (s.heap o).ss.nextExit = false) : SysInv o rs t ∧ o < t.next := by
  induction h with
  | nil => exact ⟨⟨by rw [hs]; exact .nil, (by rw [hs]; intro h; cases h), (by intro y h; cases h)⟩, ho⟩
  | call h fuel op ih =>
    have hst := runOp_noSys (K := K) fuel op ‹_›
    have := hst.ss ih.2 (fun _ h => h)
    exact ⟨ih.1.congr (by rw [this]) (by rw [this]) hst.old.length, Nat.lt_of_lt_of_le ih.2 hst.old.next⟩
  | @other rs t h fuel q hq ih =>
    have := sysEvent_other (K := K) fuel C q o t ih.2 hq
    exact ⟨ih.1.congr (by rw [this]) (by rw [this]) (sysEvent_steps fuel C q t).old.length,
      Nat.lt_of_lt_of_le ih.2 (sysEvent_steps fuel C q t).old.next⟩
  | @callback rs t h q b ih =>
    refine ⟨?_, ih.2⟩
    by_cases hq : o = q
    · subst hq
      refine ih.1.congr ?_ ?_ (Nat.le_refl _) <;> rw [updSys_ss]
    · refine ih.1.congr ?_ ?_ (Nat.le_refl _) <;> rw [updSys_ss_other _ _ _ _ hq]
  | @report rs t u r h fuel hr ih =>
    obtain ⟨hi, hlt⟩ := ih
    have hnext : t.next ≤ u.next := by
      have := (sysEvent_steps (K := K) fuel C o t).old.next
      rw [hr] at this
      exact this
    have hlen : t.log.length ≤ u.log.length := by
      have := (sysEvent_steps (K := K) fuel C o t).old.length
      rw [hr] at this
      exact this
    refine ⟨?_, Nat.lt_of_lt_of_le hlt hnext⟩
    unfold sysEvent at hr
    cases hx : (t.heap o).ss.nextExit with
    | true =>
      rw [hx, if_pos rfl] at hr
      obtain ⟨hsome, hnone, hss⟩ := sysExit_ok fuel o t u hlt r hr
      obtain ⟨rs', a, rfl, ha⟩ := hi.stored hx
      have halt := hi.alternate
      rw [hx] at halt
      have hold : ∀ y, some y ∈ rs' ++ [a] ++ [r] → y.ident < u.log.length := by
        intro y hy
        rcases List.mem_append.1 hy with h1 | h1
        · exact Nat.lt_of_lt_of_le (hi.old y h1) hlen
        · replace h1 := List.mem_singleton.1 h1
          clear hy
          cases a with
          | none => rw [hnone ha] at h1; cases h1
          | some x =>
            obtain ⟨v, hv⟩ := ha
            obtain ⟨w, _, _, hw⟩ := hsome _ hv
            rw [hw] at h1
            injection h1 with h1
            have := hi.old x (List.mem_append.2 (Or.inr List.mem_cons_self))
            rw [h1]
            exact Nat.lt_of_lt_of_le this hlen
      refine ⟨?_, (fun h => by rw [hss] at h; cases h), hold⟩
      rw [hss]
      refine .finish halt ?_
      have hstart : Start a := by
        generalize hl : rs' ++ [a] = l at halt
        cases halt with
        | start h0 hst _ =>
          have := List.append_inj' hl rfl
          have h3 := this.2
          injection h3 with h3
          rw [h3]; exact hst
      cases a with
      | none =>
        rw [hnone ha]
        exact trivial
      | some x =>
        obtain ⟨v, hv⟩ := ha
        obtain ⟨w, _, _, hw⟩ := hsome _ hv
        rw [hw]
        exact ⟨rfl, rfl, hstart, rfl⟩
    | false =>
      rw [hx, if_neg (by decide)] at hr
      have hgrow := sysEnter_grows C o t u r hr
      obtain ⟨regs, st, _, hreq, hss⟩ := sysEnter_ok C o t u r hr
      have halt := hi.alternate
      rw [hx] at halt
      have hid : ∀ x, r = some x → x.ident = t.log.length := by
        intro x hx
        rw [hreq] at hx
        split at hx
        · cases hx
        · injection hx with hx; rw [← hx]
      refine ⟨?_, fun _ => ⟨rs, r, rfl, ?_⟩, ?_⟩
      · rw [hss]
        refine .start halt ?_ ?_
        · rw [hreq]
          split
          · exact trivial
          · rfl
        · intro x y hx hy he
          have := hi.old y hy
          rw [he, hid x hx] at this
          omega
      · cases hrr : r with
        | none => show (u.heap o).ss.syscall = none; rw [hss, hrr]
        | some x => exact ⟨x.result, by rw [hss, hrr]⟩
      · intro y hy
        rcases List.mem_append.1 hy with hy | hy
        · exact Nat.lt_of_lt_of_le (hi.old y hy) hlen
        · rw [hid y (List.mem_singleton.1 hy).symm]
          exact hgrow
  | @failed rs t u e h fuel hr ih =>
    obtain ⟨hi, hlt⟩ := ih
    have hnext : t.next ≤ u.next := by
      have := (sysEvent_steps (K := K) fuel C o t).old.next
      rw [hr] at this
      exact this
    have hlen : t.log.length ≤ u.log.length := by
      have := (sysEvent_steps (K := K) fuel C o t).old.length
      rw [hr] at this
      exact this
    refine ⟨?_, Nat.lt_of_lt_of_le hlt hnext⟩
    unfold sysEvent at hr
    cases hx : (t.heap o).ss.nextExit with
    | true =>
      rw [hx, if_pos rfl] at hr
      obtain ⟨h1, hnone, hsome⟩ := sysExit_error fuel o t u hlt e hr
      refine ⟨by rw [h1]; exact hi.alternate, fun _ => ?_, fun y hy => Nat.lt_of_lt_of_le (hi.old y hy) hlen⟩
      obtain ⟨rs', a, hrs, ha⟩ := hi.stored hx
      refine ⟨rs', a, hrs, ?_⟩
      cases a with
      | none => exact hnone ha
      | some x =>
        obtain ⟨v, hv⟩ := ha
        obtain ⟨w, hw⟩ := hsome _ hv
        exact ⟨w, hw⟩
    | false =>
      rw [hx, if_neg (by decide)] at hr
      have h1 := sysEnter_error C o t u e hr
      refine ⟨by rw [h1]; exact hi.alternate, fun h => ?_, fun y hy => Nat.lt_of_lt_of_le (hi.old y hy) hlen⟩
      rw [h1, hx] at h
      cases h

end PT
