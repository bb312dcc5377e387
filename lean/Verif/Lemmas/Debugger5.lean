import Verif.Lemmas.Debugger4
import Verif.Spec.Debugger

/-! Invariants of reachable states and of the log. -/

namespace PT
open Spec

variable {K : Kern}

/-! ### things that never change -/

/-- Identity attributes of old objects, and what is kept of the log. -/
structure Old (s t : DSt) : Prop where
  next : s.next ≤ t.next
  pid : ∀ o, o < s.next → (t.heap o).pid = (s.heap o).pid
  parent : ∀ o, o < s.next → (t.heap o).parent = (s.heap o).parent
  was : ∀ o, o < s.next → (t.heap o).wasAttached = (s.heap o).wasAttached
  thread : ∀ o, o < s.next → (t.heap o).isThread = (s.heap o).isThread
  running : ∀ o, o < s.next → (s.heap o).running = false → (t.heap o).running = false
  log : ∃ g, t.log = s.log ++ g

theorem Old.refl (s : DSt) : Old s s :=
  ⟨Nat.le_refl _, fun _ _ => rfl, fun _ _ => rfl, fun _ _ => rfl, fun _ _ => rfl, fun _ _ h => h, ⟨[], by simp⟩⟩

theorem Old.trans {s t u : DSt} (h1 : Old s t) (h2 : Old t u) : Old s u := by
  obtain ⟨g1, hg1⟩ := h1.log
  obtain ⟨g2, hg2⟩ := h2.log
  have hlt : ∀ o, o < s.next → o < t.next := fun o ho => Nat.lt_of_lt_of_le ho h1.next
  exact ⟨Nat.le_trans h1.next h2.next,
    fun o ho => by rw [h2.pid o (hlt o ho), h1.pid o ho],
    fun o ho => by rw [h2.parent o (hlt o ho), h1.parent o ho],
    fun o ho => by rw [h2.was o (hlt o ho), h1.was o ho],
    fun o ho => by rw [h2.thread o (hlt o ho), h1.thread o ho],
    fun o ho h => h2.running o (hlt o ho) (h1.running o ho h),
    ⟨g1 ++ g2, by rw [hg2, hg1, List.append_assoc]⟩⟩

/-- Same objects, up to attributes that may change. -/
theorem Old.of_heap {s t : DSt} (hn : s.next ≤ t.next) (hl : ∃ g, t.log = s.log ++ g)
    (h : ∀ o, o < s.next → (t.heap o).pid = (s.heap o).pid ∧ (t.heap o).parent = (s.heap o).parent ∧
      (t.heap o).wasAttached = (s.heap o).wasAttached ∧ (t.heap o).isThread = (s.heap o).isThread ∧
      ((s.heap o).running = false → (t.heap o).running = false)) : Old s t :=
  ⟨hn, fun o ho => (h o ho).1, fun o ho => (h o ho).2.1, fun o ho => (h o ho).2.2.1,
    fun o ho => (h o ho).2.2.2.1, fun o ho => (h o ho).2.2.2.2, hl⟩

theorem Old.setProc (s : DSt) (o : Nat) (p : Proc) (h : p.pid = (s.heap o).pid ∧ p.parent = (s.heap o).parent ∧
      p.wasAttached = (s.heap o).wasAttached ∧ p.isThread = (s.heap o).isThread ∧
      ((s.heap o).running = false → p.running = false)) : Old s (setProc s o p) := by
  refine Old.of_heap (Nat.le_refl _) ⟨[], by simp [PT.setProc]⟩ ?_
  intro i _
  rw [setProc_heap]
  by_cases hi : i = o
  · rw [if_pos hi, hi]; exact h
  · rw [if_neg hi]; exact ⟨rfl, rfl, rfl, rfl, id⟩

theorem Old.logCall (c : Call) (s : DSt) : Old s (logCall K c s) :=
  Old.of_heap (Nat.le_refl _) ⟨_, rfl⟩ fun _ _ => ⟨rfl, rfl, rfl, rfl, id⟩

theorem Old.unreg (o : Nat) (s : DSt) : Old s (unreg o s) :=
  Old.of_heap (Nat.le_refl _) ⟨[], by simp [PT.unreg]⟩ fun _ _ => ⟨rfl, rfl, rfl, rfl, id⟩

theorem old_add (s s0 : DSt) (h0 : Old s s0) (hn : s0.next = s.next) (p : Proc) (d : List (Nat × Nat)) (l : List Nat) :
    Old s { PT.setProc s0 s.next p with next := s.next + 1, dict := d, list := l } := by
  obtain ⟨g, hg⟩ := h0.log
  refine Old.of_heap (Nat.le_succ _) ⟨g, hg⟩ ?_
  intro o ho
  have : (PT.setProc s0 s.next p).heap o = s0.heap o := by
    rw [setProc_heap, if_neg (by omega)]
  show ((PT.setProc s0 s.next p).heap o).pid = _ ∧ ((PT.setProc s0 s.next p).heap o).parent = _ ∧
    ((PT.setProc s0 s.next p).heap o).wasAttached = _ ∧ ((PT.setProc s0 s.next p).heap o).isThread = _ ∧
    (_ → ((PT.setProc s0 s.next p).heap o).running = _)
  rw [this]
  exact ⟨h0.pid o ho, h0.parent o ho, h0.was o ho, h0.thread o ho, h0.running o ho⟩

theorem Old.step {s t : DSt} {a : Act} (h : Step K a s t) : Old s t := by
  cases h with
  | call c _ => exact Old.logCall c s
  | attachFail o pid _ => exact Old.logCall _ s
  | detachRun o _ _ _ =>
    exact ((Old.setProc s o { s.heap o with isAttached := false } ⟨rfl, rfl, rfl, rfl, id⟩).trans (Old.logCall _ _)).trans
      (Old.unreg o _)
  | detachDead o _ _ =>
    exact (Old.setProc s o { s.heap o with isAttached := false } ⟨rfl, rfl, rfl, rfl, id⟩).trans (Old.unreg o _)
  | detachFail o _ _ _ =>
    exact (Old.setProc s o { s.heap o with isAttached := false } ⟨rfl, rfl, rfl, rfl, id⟩).trans (Old.logCall _ _)
  | stopRun o => exact Old.setProc s o _ ⟨rfl, rfl, rfl, rfl, fun _ => rfl⟩
  | unattach o => exact Old.setProc s o _ ⟨rfl, rfl, rfl, rfl, id⟩
  | stopped o b => exact Old.setProc s o _ ⟨rfl, rfl, rfl, rfl, id⟩
  | sys o ss => exact Old.setProc s o _ ⟨rfl, rfl, rfl, rfl, id⟩
  | addAttached pid parent isThread _ => exact old_add s s (Old.refl s) rfl _ _ _
  | addAttach pid parent isThread _ _ => exact old_add s _ (Old.logCall _ s) rfl _ _ _
  | options bits a b c d =>
    exact Old.of_heap (Nat.le_refl _) ⟨[], by simp⟩ fun _ _ => ⟨rfl, rfl, rfl, rfl, id⟩
  | delete o => exact Old.unreg o s
  | reattach o _ _ =>
    exact (Old.logCall (K := K) _ s).trans (Old.setProc _ o { s.heap o with isAttached := true } ⟨rfl, rfl, rfl, rfl, id⟩)

theorem Steps.old {P : DSt → Act → Prop} {s t : DSt} (h : Steps K P s t) : Old s t :=
  h.relation Old.refl Old.trans fun _ _ _ _ hs => Old.step hs

/-! ### what a step adds to the log -/

/-- The call logged by a step, if any. -/
def actCall (s : DSt) : Act → Option Call
  | .call c => some c
  | .detachRun o => some (.detach o (s.heap o).pid)
  | .detachFail o => some (.detach o (s.heap o).pid)
  | .add o pid false _ _ => some (.attach o pid)
  | .reattach o => some (.attach o (s.heap o).pid)
  | _ => none

theorem Step.log {s t : DSt} {a : Act} (h : Step K a s t) :
    t.log = s.log ++ (actCall s a).toList.map fun c => ⟨c, K s.log c, s.dict⟩ := by
  cases h <;> first | rfl | simp [actCall, setProc, unreg, logCall]

/-- Entries added by a sequence of steps. -/
theorem Steps.newLog {P : DSt → Act → Prop} {Q : Entry → Prop} {s t : DSt} (h : Steps K P s t)
    (hQ : ∀ u a c, P u a → actCall u a = some c → Q ⟨c, K u.log c, u.dict⟩) :
    ∃ g, t.log = s.log ++ g ∧ ∀ e ∈ g, Q e := by
  induction h with
  | refl => exact ⟨[], by simp, by simp⟩
  | step a h hp hs ih =>
    obtain ⟨g, hg, hq⟩ := ih
    rename_i u v
    refine ⟨g ++ (actCall u a).toList.map fun c => ⟨c, K u.log c, u.dict⟩, ?_, ?_⟩
    · rw [hs.log, hg, List.append_assoc]
    · intro e he
      rcases List.mem_append.1 he with he | he
      · exact hq e he
      · cases hc : actCall u a with
        | none => rw [hc] at he; simp at he
        | some c =>
          rw [hc] at he
          simp only [Option.toList, List.map_cons, List.map_nil, List.mem_singleton] at he
          rw [he]
          exact hQ u a c hp hc

/-! ### reachable states -/

/-- Pids are not 0. -/
structure PidInv (s : DSt) : Prop where
  obj : ∀ o, o < s.next → (s.heap o).pid ≠ 0
  keys : ∀ p ∈ s.dict.map Prod.fst, p ≠ 0
  list : ∀ o ∈ s.list, o < s.next

/-- The labels that do not introduce pid 0. -/
def nzActs : Act → Prop
  | .add _ pid _ _ _ => pid ≠ 0
  | .call (.waitpid none _ _) => False
  | _ => True

theorem nz_of_plain (a : Act) (h : plainActs False a) : nzActs a := by
  unfold plainActs at h
  unfold nzActs
  split
  · simpa using h
  · exact h
  · trivial

theorem PidInv.congr {s t : DSt} (h : PidInv s) (hn : t.next = s.next) (hp : ∀ o, (t.heap o).pid = (s.heap o).pid)
    (hd : ∀ p ∈ t.dict.map Prod.fst, p ∈ s.dict.map Prod.fst) (hl : ∀ o ∈ t.list, o ∈ s.list) : PidInv t :=
  ⟨fun o ho => by rw [hp]; exact h.obj o (by omega), fun p hp => h.keys p (hd p hp),
    fun o ho => by rw [hn]; exact h.list o (hl o ho)⟩

theorem PidInv.setProc {s : DSt} (h : PidInv s) (o : Nat) (p : Proc) (hp : p.pid = (s.heap o).pid) :
    PidInv (setProc s o p) := by
  refine h.congr rfl ?_ (fun _ h => h) (fun _ h => h)
  intro i
  rw [setProc_heap]
  by_cases hi : i = o
  · rw [if_pos hi, hi, hp]
  · rw [if_neg hi]

theorem PidInv.logCall {s : DSt} (h : PidInv s) (c : Call) : PidInv (logCall K c s) :=
  h.congr rfl (fun _ => rfl) (fun _ h => h) (fun _ h => h)

theorem PidInv.unreg {s : DSt} (h : PidInv s) (o : Nat) : PidInv (unreg o s) := by
  refine h.congr rfl (fun _ => rfl) ?_ (fun _ h => List.mem_of_mem_erase h)
  intro p hp
  obtain ⟨e, he, rfl⟩ := List.mem_map.1 hp
  exact List.mem_map.2 ⟨e, ((mem_dictDel e).1 he).1, rfl⟩

theorem PidInv.add {s : DSt} (h : PidInv s) (pid : Nat) (hp : pid ≠ 0) (a : Bool) (parent : Option Nat) (b : Bool) :
    PidInv { PT.setProc s s.next (freshProc pid a parent b) with
          next := s.next + 1
          dict := dictSet s.dict pid s.next
          list := s.list ++ [s.next] } := by
  refine ⟨?_, ?_, ?_⟩
  · intro o ho
    show ((PT.setProc s s.next (freshProc pid a parent b)).heap o).pid ≠ 0
    rw [setProc_heap]
    by_cases ho' : o = s.next
    · rw [if_pos ho']; exact hp
    · rw [if_neg ho']
      have ho : o < s.next + 1 := ho
      exact h.obj o (by omega)
  · intro p hpk
    obtain ⟨e, he, rfl⟩ := List.mem_map.1 hpk
    rcases (mem_dictSet e).1 he with he | ⟨_, he⟩
    · rw [he]; exact hp
    · exact h.keys _ (List.mem_map.2 ⟨e, he, rfl⟩)
  · intro o ho
    show o < s.next + 1
    rcases List.mem_append.1 ho with ho | ho
    · exact Nat.lt_succ_of_lt (h.list o ho)
    · rw [List.mem_singleton.1 ho]; exact Nat.lt_succ_self _

theorem PidInv.step {s t : DSt} {a : Act} (ha : nzActs a) (hs : Step K a s t) (h : PidInv s) : PidInv t := by
  cases hs with
  | call c _ => exact h.logCall c
  | attachFail o pid _ => exact h.logCall _
  | detachRun o _ _ _ => exact ((h.setProc o { s.heap o with isAttached := false } rfl).logCall _).unreg o
  | detachDead o _ _ => exact (h.setProc o { s.heap o with isAttached := false } rfl).unreg o
  | detachFail o _ _ _ => exact (h.setProc o { s.heap o with isAttached := false } rfl).logCall _
  | stopRun o => exact h.setProc o _ rfl
  | unattach o => exact h.setProc o _ rfl
  | stopped o b => exact h.setProc o _ rfl
  | sys o ss => exact h.setProc o _ rfl
  | addAttached pid parent isThread _ => exact h.add pid ha _ _ _
  | addAttach pid parent isThread _ _ => exact (h.logCall (K := K) (.attach s.next pid)).add pid ha _ _ _
  | options bits a b c d => exact h.congr rfl (fun _ => rfl) (fun _ h => h) (fun _ h => h)
  | delete o => exact h.unreg o
  | reattach o _ _ => exact (h.logCall (K := K) _).setProc o { s.heap o with isAttached := true } rfl

/-- Rules for histories that never name pid 0. -/
def nzRules (hz : NoZero K) (Q : DSt → Act → Prop) (s0 : DSt) : Rules K where
  P := fun t a => nzActs a ∧ Q t a
  I := fun t => PidInv t ∧ s0.next ≤ t.next
  Z := False
  stable := fun _ _ _ hp hs h => ⟨PidInv.step hp.1 hs h.1, Nat.le_trans h.2 (Old.step hs).next⟩
  noZero := Or.inl hz

/-- One call that does not name pid 0, from a state without pid 0. -/
theorem runOp_nz (hz : NoZero K) (Q : DSt → Act → Prop) (hQ : ∀ t a, plainActs False a → Q t a)
    (fuel : Nat) (op : Op) (s : DSt) (hs : PidInv s) (hop : opNoZero op)
    (hd : ∀ o, op = .deleteProcess o → o < s.next → Q s (.delete o))
    (hdp : ∀ pid o, op = .deletePid pid → dictGet s.dict pid = some o → Q s (.delete o))
    (ha : ∀ o, op = .attach o → o < s.next → Q s (.reattach o))
    (ho : opOptions op → ∀ bits, Q s (.options bits)) :
    Steps K (fun t a => nzActs a ∧ Q t a) s (runOp K fuel op s).2 := by
  refine runOp_steps (S := nzRules hz Q s) fuel op s ⟨hs, Nat.le_refl _⟩
    (fun t a h => ⟨nz_of_plain a h, hQ t a h⟩) (Or.inl hop) ?_ ?_ (fun o h1 h2 => ⟨trivial, hd o h1 h2⟩)
    (fun p o h1 h2 => ⟨trivial, hdp p o h1 h2⟩) (fun o h1 h2 => ⟨trivial, ha o h1 h2⟩)
    (fun h bits => ⟨trivial, ho h bits⟩)
  · intro t ht p hp
    exact Or.inl (ht.1.keys p hp)
  · intro o ho t ht
    left
    rcases ho with ho | ho
    · exact ht.1.obj o (Nat.lt_of_lt_of_le ho ht.2)
    · exact ht.1.obj o (Nat.lt_of_lt_of_le (hs.list o ho) ht.2)

theorem regInv_new : RegInv newDebugger := by
  refine ⟨by exact List.nodup_nil, by exact List.nodup_nil, ?_, ?_, ?_⟩
  · intro p o
    constructor
    · intro h; cases h
    · rintro ⟨h, _⟩; cases h
  · intro o h; cases h
  · intro o h; cases h

theorem pidInv_new : PidInv newDebugger := by
  refine ⟨?_, ?_, ?_⟩
  · intro o ho; cases ho
  · intro p hp; cases hp
  · intro o ho; cases ho

theorem proper_noZero {s : DSt} {op : Op} (h : Proper s op) : opNoZero op := by
  cases op <;> first | exact h | exact trivial

/-- The registry in reachable states. -/
theorem reach_reg {s : DSt} (h : Reach K s) : RegInv s := by
  induction h with
  | new => exact regInv_new
  | call h fuel op hop ih =>
    rename_i s
    refine RegInv.steps (runOp_steps' (K := K) fuel op s (fun t a ha => regActs_plain t a ha)
      (fun o he _ => by subst he; exact ⟨hop.1, Or.inl hop.2⟩)
      (fun pid o he hg => by
        subst he
        have := (ih.agree pid o).1 (dictGet_some hg)
        exact ⟨hop o hg, Or.inl this.1⟩)
      (fun o he _ => by subst he; exact hop)
      (fun _ _ => trivial)) ih

/-- No pid is 0 in reachable states. -/
theorem reach_pid (hz : NoZero K) {s : DSt} (h : Reach K s) : PidInv s := by
  induction h with
  | new => exact pidInv_new
  | call h fuel op hop ih =>
    rename_i s
    exact (runOp_nz hz (fun _ _ => True) (fun _ _ _ => trivial) fuel op s ih (proper_noZero hop)
      (fun _ _ _ => trivial) (fun _ _ _ _ => trivial) (fun _ _ _ => trivial)
      (fun _ _ => trivial)).invariant (fun _ _ _ hp hs h => PidInv.step hp.1 hs h) ih

end PT
