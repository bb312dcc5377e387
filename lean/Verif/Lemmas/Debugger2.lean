import Verif.Lemmas.Debugger

/-! Invariants of the debugger, step by step. -/

namespace PT

section
variable {K : Kern} {S : Rules K} {α : Type}

theorem quitLoop_sat (hw : ∀ s a, waitActs S.Z a → S.P s a) (fuel : Nat) (os : List Nat)
    (hpid : ∀ o ∈ os, ∀ s, S.I s → (s.heap o).pid ≠ 0 ∨ S.Z)
    (hc : ∀ o ∈ os, ∀ s pid signum, S.P s (.call (.cont o pid signum)))
    (hst : ∀ o ∈ os, ∀ s, S.P s (.stopped o false))
    (hk : ∀ o ∈ os, ∀ s pid, S.P s (.call (.kill o pid SIGKILL)))
    (hr : ∀ o ∈ os, ∀ s, S.P s (.detachRun o)) (hf : ∀ o ∈ os, ∀ s, S.P s (.detachFail o)) :
    Sat S (quitLoop K fuel os) := by
  induction os with
  | nil => exact Sat.pure _
  | cons o os ih =>
    have ho : o ∈ o :: os := List.mem_cons_self
    refine Sat.bind (terminate_sat hw o (hpid o ho) (hc o ho) (hst o ho) (hk o ho) _ _) fun _ => ?_
    refine Sat.bind (detach_sat o (fun s => hw s _ (by exact trivial)) (hr o ho) (hf o ho)) fun _ => ?_
    exact ih (fun q hq => hpid q (List.mem_cons_of_mem _ hq)) (fun q hq => hc q (List.mem_cons_of_mem _ hq))
      (fun q hq => hst q (List.mem_cons_of_mem _ hq)) (fun q hq => hk q (List.mem_cons_of_mem _ hq))
      (fun q hq => hr q (List.mem_cons_of_mem _ hq)) (fun q hq => hf q (List.mem_cons_of_mem _ hq))

/-- Labels that any call of the library may produce, `delete`, `reattach` and `options` excepted. -/
def plainActs (Z : Prop) : Act → Prop
  | .delete _ => False
  | .reattach _ => False
  | .options _ => False
  | .sys _ => False
  | .call (.waitpid none _ _) => Z
  | .add _ pid _ _ _ => pid ≠ 0 ∨ Z
  | _ => True

theorem plain_of_wait {Z : Prop} (a : Act) (h : waitActs Z a) : plainActs Z a := by
  unfold waitActs at h
  split at h <;> first | exact trivial | exact h | exact h.elim

theorem delete_steps (o : Nat) (s : DSt) (h : S.P s (.delete o)) : Steps K S.P s (deleteProcess o s).2 :=
  .one h (.delete o)

/-- The call does not name pid 0. -/
def opNoZero : Op → Prop
  | .addProcess pid _ _ _ => pid ≠ 0
  | .waitProcessEvent pid _ => pid ≠ some 0
  | .waitSignals _ pid => pid ≠ some 0
  | _ => True

/-- The calls that set trace options. -/
def opOptions : Op → Prop
  | .traceFork => True
  | .traceExec => True
  | .traceClone => True
  | .enableSysgood => True
  | _ => False

/-- Every call is a sequence of steps; a `delete` or `reattach` step happens only for the calls of this
name, and then it is the only step. -/
theorem runOp_steps (fuel : Nat) (op : Op) (s : DSt) (hI : S.I s) (hp : ∀ t a, plainActs S.Z a → S.P t a)
    (hz : opNoZero op ∨ S.Z)
    (hkeys : ∀ s, S.I s → ∀ p ∈ s.dict.map Prod.fst, p ≠ 0 ∨ S.Z)
    (hobj : ∀ o, o < s.next ∨ o ∈ s.list → ∀ t, S.I t → (t.heap o).pid ≠ 0 ∨ S.Z)
    (hd : ∀ o, op = .deleteProcess o → o < s.next → S.P s (.delete o))
    (hdp : ∀ pid o, op = .deletePid pid → dictGet s.dict pid = some o → S.P s (.delete o))
    (ha : ∀ o, op = .attach o → o < s.next → S.P s (.reattach o))
    (ho : opOptions op → ∀ bits, S.P s (.options bits)) :
    Steps K S.P s (runOp K fuel op s).2 := by
  have hw : ∀ t a, waitActs S.Z a → S.P t a := fun t a h => hp t a (plain_of_wait a h)
  cases op with
  | addProcess pid isAttached parent isThread =>
    exact void_sat (addProcess_sat hw (waitEventPid_sat hw fuel) _ hz _ _ _ (fun s o => hp s _ (by exact hz))
      (fun _ s o => hp s _ (by exact trivial))) s hI
  | deleteProcess o => exact onObj_steps hI fun ho => delete_steps o s (hd o rfl ho)
  | deletePid pid =>
    show Steps K S.P s (deletePid pid s).2
    unfold deletePid
    cases hg : dictGet s.dict pid with
    | none => exact .refl s
    | some o => exact delete_steps o s (hdp pid o rfl hg)
  | quit =>
    exact quitLoop_sat hw fuel _ (fun o ho t ht => hobj o (Or.inr (List.mem_reverse.1 ho)) t ht)
      (fun o _ s pid n => hp s _ (by exact trivial)) (fun o _ s => hp s _ (by exact trivial))
      (fun o _ s pid => hp s _ (by exact trivial)) (fun o _ s => hp s _ (by exact trivial))
      (fun o _ s => hp s _ (by exact trivial)) s hI
  | waitProcessEvent pid blocking =>
    exact void_sat (waitProcessEvent_sat hw (fun s => hp s _ (by exact trivial)) hkeys _ _ hz _) s hI
  | waitSignals signals pid =>
    exact void_sat (waitSignals_sat hw (fun s => hp s _ (by exact trivial)) hkeys _ _ _ hz) s hI
  | waitSyscall o =>
    cases o with
    | none =>
      exact void_sat (fun t ht => waitSignals_sat (K := K) hw (fun s => hp s _ (by exact trivial)) hkeys _ _ _
        (Or.inl (by intro h; cases h)) t ht) s hI
    | some o =>
      refine onObj_steps hI fun ho => ?_
      refine waitSignals_sat (K := K) hw (fun s => hp s _ (by exact trivial)) hkeys _ _ _ ?_ s hI
      refine (hobj o (Or.inl ho) s hI).imp ?_ id
      intro h0 h
      injection h with h
      exact h0 h
  | traceFork => exact .one (ho trivial _) (.options _ _ _ _ _)
  | traceExec => exact .one (ho trivial _) (.options _ _ _ _ _)
  | traceClone => exact .one (ho trivial _) (.options _ _ _ _ _)
  | enableSysgood => exact .one (ho trivial _) (.options _ _ _ _ _)
  | attach o =>
    refine onObj_steps hI fun ho => ?_
    unfold procAttach
    by_cases hat : (s.heap o).isAttached = true
    · rw [if_pos hat]; exact .refl s
    · rw [if_neg hat]
      have ha' : (s.heap o).isAttached = false := by simpa using hat
      unfold Py.bind
      rw [ptraceCall_run]
      cases hr : ptraceRes (K s.log (.attach o (s.heap o).pid)) with
      | ok v =>
        obtain ⟨st, hst⟩ := ptraceRes_ok hr
        exact .one (ha o rfl ho) (.reattach o ha' hst)
      | error e => exact .one (hp s _ (by exact trivial)) (.attachFail o _ (ptraceRes_err hr))
  | detach o =>
    exact onObj_sat o (detach_sat o (fun s => hp s _ (by exact trivial)) (fun s => hp s _ (by exact trivial))
      (fun s => hp s _ (by exact trivial))) s hI
  | cont o signum =>
    exact onObj_sat o (procCont_sat o _ (fun s pid => hp s _ (by exact trivial)) (fun s => hp s _ (by exact trivial))) s hI
  | syscall o signum =>
    exact onObj_sat o (procSyscall_sat o _ (fun s pid => hp s _ (by exact trivial)) (fun s => hp s _ (by exact trivial))) s hI
  | singleStep o => exact onObj_sat o (procSingleStep_sat o (fun s pid => hp s _ (by exact trivial))) s hI
  | kill o signum => exact onObj_sat o (procKill_sat o _ (fun s pid => hp s _ (by exact trivial))) s hI
  | setoptions o options => exact onObj_sat o (procSetoptions_sat o _ (fun s pid => hp s _ (by exact trivial))) s hI
  | terminate o wait =>
    exact onObj_steps hI fun ho => terminate_sat hw o (fun t ht => hobj o (Or.inl ho) t ht)
      (fun s pid n => hp s _ (by exact trivial)) (fun s => hp s _ (by exact trivial))
      (fun s pid => hp s _ (by exact trivial)) _ _ s hI
  | waitExit o =>
    exact onObj_steps hI fun ho => waitExit_sat hw o (fun t ht => hobj o (Or.inl ho) t ht)
      (fun s pid n => hp s _ (by exact trivial)) (fun s => hp s _ (by exact trivial)) _ _ s hI
  | processTerminated o =>
    exact onObj_sat o (Sat.bind (notRunning_sat o (fun s => hp s _ (by exact trivial)) (fun s => hp s _ (by exact trivial)))
      fun _ => Sat.pure _) s hI

/-- Every call is a sequence of steps allowed by `P`, if these include the plain ones. -/
theorem runOp_steps' {P : DSt → Act → Prop} (fuel : Nat) (op : Op) (s : DSt)
    (hp : ∀ t a, plainActs True a → P t a)
    (hd : ∀ o, op = .deleteProcess o → o < s.next → P s (.delete o))
    (hdp : ∀ pid o, op = .deletePid pid → dictGet s.dict pid = some o → P s (.delete o))
    (ha : ∀ o, op = .attach o → o < s.next → P s (.reattach o))
    (ho : opOptions op → ∀ bits, P s (.options bits)) : Steps K P s (runOp K fuel op s).2 :=
  runOp_steps (S := Rules.plain K P) fuel op s (by exact trivial) hp (Or.inr (by exact trivial))
    (fun _ _ _ _ => Or.inr (by exact trivial)) (fun _ _ _ _ => Or.inr (by exact trivial)) hd hdp ha ho

/-- Every history is a sequence of steps. -/
theorem runOps_steps (fuel : Nat) (ops : List Op) (s : DSt) :
    Steps K (fun _ _ => True) s (runOps K fuel ops s) := by
  induction ops generalizing s with
  | nil => exact .refl s
  | cons op ops ih =>
    exact (runOp_steps' fuel op s (fun _ _ _ => trivial) (fun _ _ _ => trivial) (fun _ _ _ _ => trivial)
      (fun _ _ _ => trivial) (fun _ _ => trivial)).trans (ih _)

end

/-! ### registry -/

/-- `dict` and `list` describe the same objects, and every attached object is registered. -/
structure RegInv (s : DSt) : Prop where
  keys : (s.dict.map Prod.fst).Nodup
  nodup : s.list.Nodup
  agree : ∀ p o, (p, o) ∈ s.dict ↔ o ∈ s.list ∧ (s.heap o).pid = p
  alloc : ∀ o ∈ s.list, o < s.next
  att : ∀ o, (s.heap o).isAttached = true → o ∈ s.list

theorem RegInv.congr {s t : DSt} (h : RegInv s) (hd : t.dict = s.dict) (hl : t.list = s.list)
    (hn : s.next ≤ t.next) (hp : ∀ o, (t.heap o).pid = (s.heap o).pid)
    (ha : ∀ o, (t.heap o).isAttached = true → (s.heap o).isAttached = true) : RegInv t := by
  refine ⟨by rw [hd]; exact h.keys, by rw [hl]; exact h.nodup, ?_, ?_, ?_⟩
  · intro p o; rw [hd, hl, hp]; exact h.agree p o
  · intro o ho; rw [hl] at ho; exact Nat.lt_of_lt_of_le (h.alloc o ho) hn
  · intro o ho; rw [hl]; exact h.att o (ha o ho)

theorem setProc_heap (s : DSt) (o : Nat) (p : Proc) (i : Nat) :
    (setProc s o p).heap i = if i = o then p else s.heap i := rfl

/-- Changing an object without touching its pid or attaching it. -/
theorem RegInv.setProc {s : DSt} (h : RegInv s) (o : Nat) (p : Proc) (hp : p.pid = (s.heap o).pid)
    (ha : p.isAttached = true → (s.heap o).isAttached = true) : RegInv (setProc s o p) := by
  refine h.congr rfl rfl (Nat.le_refl _) ?_ ?_
  · intro i
    rw [setProc_heap]
    by_cases hi : i = o
    · rw [if_pos hi, hi]; exact hp
    · rw [if_neg hi]
  · intro i
    rw [setProc_heap]
    by_cases hi : i = o
    · rw [if_pos hi, hi]; exact ha
    · rw [if_neg hi]; exact id

/-- Unregistering an object that is not attached. -/
theorem RegInv.unreg {s : DSt} (h : RegInv s) (o : Nat) (ha : (s.heap o).isAttached = false)
    (hreg : o ∈ s.list ∨ dictHas s.dict (s.heap o).pid = false) : RegInv (unreg o s) := by
  have hmem : ∀ i, i ∈ s.list.erase o ↔ i ∈ s.list ∧ i ≠ o := by
    intro i
    rw [List.Nodup.mem_erase_iff h.nodup]
    exact and_comm
  refine ⟨dictDel_nodup h.keys, h.nodup.erase o, ?_, ?_, ?_⟩
  · intro p i
    show (p, i) ∈ dictDel s.dict (s.heap o).pid ↔ i ∈ s.list.erase o ∧ (s.heap i).pid = p
    rw [mem_dictDel, hmem, h.agree]
    constructor
    · rintro ⟨⟨hi, hp⟩, hne⟩
      refine ⟨⟨hi, ?_⟩, hp⟩
      rintro rfl
      exact hne hp.symm
    · rintro ⟨⟨hi, hne⟩, hp⟩
      refine ⟨⟨hi, hp⟩, ?_⟩
      show p ≠ (s.heap o).pid
      intro hpo
      rcases hreg with ho | ho
      · have h1 := (h.agree p i).2 ⟨hi, hp⟩
        have h2 := (h.agree p o).2 ⟨ho, hpo.symm⟩
        have := nodup_map_inj h.keys h1 h2 rfl
        exact hne (Prod.mk.inj this).2
      · have h1 := (h.agree p i).2 ⟨hi, hp⟩
        rw [hpo] at h1
        exact dictHas_false.1 ho i h1
  · intro i hi
    exact h.alloc i ((hmem i).1 hi).1
  · intro i hi
    refine (hmem i).2 ⟨h.att i hi, ?_⟩
    rintro rfl
    have hi' : (s.heap i).isAttached = true := hi
    rw [ha] at hi'
    cases hi'

theorem RegInv.logCall {s : DSt} (h : RegInv s) (K : Kern) (c : Call) : RegInv (logCall K c s) :=
  h.congr rfl rfl (Nat.le_refl _) (fun _ => rfl) (fun _ => id)

/-- Registering a new object. -/
theorem RegInv.add {s : DSt} (h : RegInv s) (pid : Nat) (isAttached : Bool) (parent : Option Nat)
    (isThread : Bool) (hd : dictHas s.dict pid = false) : RegInv
      { PT.setProc s s.next (freshProc pid isAttached parent isThread) with
          next := s.next + 1
          dict := dictSet s.dict pid s.next
          list := s.list ++ [s.next] } := by
  have hfresh := dictHas_false.1 hd
  have hset : dictSet s.dict pid s.next = s.dict ++ [(pid, s.next)] :=
    dictSet_fresh (fun e he hp => hfresh e.2 (by rw [← hp]; exact he))
  have hnext : ∀ o ∈ s.list, o ≠ s.next := fun o ho => Nat.ne_of_lt (h.alloc o ho)
  refine ⟨dictSet_nodup h.keys, ?_, ?_, ?_, ?_⟩
  · show (s.list ++ [s.next]).Nodup
    rw [List.nodup_append]
    refine ⟨h.nodup, by simp, ?_⟩
    intro a ha b hb
    simp at hb
    rw [hb]
    exact hnext a ha
  · intro p o
    show (p, o) ∈ dictSet s.dict pid s.next ↔ o ∈ s.list ++ [s.next] ∧
      ((PT.setProc s s.next (freshProc pid isAttached parent isThread)).heap o).pid = p
    rw [hset, setProc_heap, List.mem_append, List.mem_append, h.agree]
    constructor
    · rintro (⟨ho, hp⟩ | he)
      · rw [if_neg (hnext o ho)]
        exact ⟨Or.inl ho, hp⟩
      · have he := List.mem_singleton.1 he
        injection he with h1 h2
        subst h1 h2
        rw [if_pos rfl]
        exact ⟨Or.inr (by simp), rfl⟩
    · rintro ⟨ho | ho, hp⟩
      · rw [if_neg (hnext o ho)] at hp
        exact Or.inl ⟨ho, hp⟩
      · have ho := List.mem_singleton.1 ho
        subst ho
        rw [if_pos rfl] at hp
        right
        rw [← hp]
        exact List.mem_singleton.2 rfl
  · intro o ho
    show o < s.next + 1
    rcases List.mem_append.1 ho with ho | ho
    · exact Nat.lt_succ_of_lt (h.alloc o ho)
    · rw [List.mem_singleton.1 ho]; exact Nat.lt_succ_self _
  · intro o ho
    show o ∈ s.list ++ [s.next]
    have ho' : (if o = s.next then freshProc pid isAttached parent isThread else s.heap o).isAttached = true := ho
    rw [List.mem_append]
    by_cases hon : o = s.next
    · exact Or.inr (by simp [hon])
    · rw [if_neg hon] at ho'
      exact Or.inl (h.att o ho')

/-- The steps that keep the registry consistent: all, except a user `delete` of an attached object
and a user `attach` of an unregistered one. -/
def regActs (s : DSt) : Act → Prop
  | .delete o => (s.heap o).isAttached = false ∧ (o ∈ s.list ∨ dictHas s.dict (s.heap o).pid = false)
  | .reattach o => o ∈ s.list
  | _ => True

theorem regActs_plain {Z : Prop} (s : DSt) (a : Act) (h : plainActs Z a) : regActs s a := by
  cases a <;> first | exact h.elim | exact trivial

theorem RegInv.step {K : Kern} {s t : DSt} {a : Act} (hp : regActs s a) (hs : Step K a s t) (h : RegInv s) :
    RegInv t := by
  cases hs with
  | call c hc => exact h.logCall K c
  | attachFail o pid hk => exact h.logCall K _
  | detachRun o ha hr hk =>
    have h1 : RegInv (PT.setProc s o { s.heap o with isAttached := false }) :=
      h.setProc o _ rfl (by intro e; cases e)
    refine (h1.logCall K _).unreg o ?_ (Or.inl (h.att o ha))
    show (if o = o then { s.heap o with isAttached := false } else s.heap o : Proc).isAttached = false
    rw [if_pos rfl]
  | detachDead o ha hr =>
    have h1 : RegInv (PT.setProc s o { s.heap o with isAttached := false }) :=
      h.setProc o _ rfl (by intro e; cases e)
    refine h1.unreg o ?_ (Or.inl (h.att o ha))
    show (if o = o then { s.heap o with isAttached := false } else s.heap o : Proc).isAttached = false
    rw [if_pos rfl]
  | detachFail o ha hr hk =>
    exact (h.setProc o { s.heap o with isAttached := false } rfl (by intro e; cases e)).logCall K _
  | stopRun o => exact h.setProc o _ rfl id
  | unattach o => exact h.setProc o _ rfl (by intro e; cases e)
  | stopped o b => exact h.setProc o _ rfl id
  | sys o ss => exact h.setProc o _ rfl id
  | addAttached pid parent isThread hd => exact h.add pid true parent isThread hd
  | addAttach pid parent isThread hd hk => exact (h.logCall K _).add pid false parent isThread hd
  | options bits a b c d => exact h.congr rfl rfl (Nat.le_refl _) (fun _ => rfl) (fun _ => id)
  | delete o => exact h.unreg o hp.1 hp.2
  | reattach o ha hk =>
    have hreg : o ∈ s.list := hp
    refine ⟨h.keys, h.nodup, ?_, h.alloc, ?_⟩
    · intro p i
      have := h.agree p i
      show (p, i) ∈ s.dict ↔ i ∈ s.list ∧
        (if i = o then { s.heap o with isAttached := true } else s.heap i : Proc).pid = p
      by_cases hi : i = o
      · rw [if_pos hi, ← hi]; exact this
      · rw [if_neg hi]; exact this
    · intro i hi
      by_cases hio : i = o
      · rw [hio]; exact hreg
      · have hi' : (if i = o then { s.heap o with isAttached := true } else s.heap i : Proc).isAttached = true := hi
        rw [if_neg hio] at hi'
        exact h.att i hi'

theorem RegInv.steps {K : Kern} {s t : DSt} (hs : Steps K regActs s t) (h : RegInv s) : RegInv t :=
  hs.invariant (fun _ _ _ hp hst hi => RegInv.step hp hst hi) h

theorem RegInv.plain {K : Kern} {s t : DSt} (hs : Steps K (fun _ => plainActs True) s t) (h : RegInv s) : RegInv t :=
  RegInv.steps (hs.mono regActs_plain) h

end PT
