import Verif.Model.Life
import Verif.Props.Breakpoint
import Verif.Spec.Memory

/-! C109, C110: processes that are let go, fork or execute another program while breakpoints are set. -/

namespace PT
open Spec PT.Props

/-- C109. Detaching writes nothing to the memory of the process and removes no breakpoint. -/
theorem C109_detach (detachErr : LifeSt → Nat) (s : LifeSt) : (lifeDetach detachErr s).2.bp = s.bp := by
  unfold lifeDetach
  split
  · rfl
  · simp only
    split <;> rfl

/-- C109. If every breakpoint was removed before, the process that is let go has its own code. -/
theorem C109_clean_partial (h : BpHost) (s0 s : BpSt) (hd : s0.dict = []) (ho : s0.objs = []) (hr : s0.running = true) (hrun : BpRun h s0 s)
    (he : s.dict = []) (detachErr : LifeSt → Nat) (attached : Bool) :
    (lifeDetach detachErr { bp := s, attached }).2.bp.m.mem = s0.m.mem := by
  rw [C109_detach]
  exact (C20_history_partial h s0 s hd ho hr hrun).2 he

/-- C109 is false while a breakpoint is listed: the trap stays in the code of the process that is let go. -/
theorem C109_detach_refuted (h : BpHost) (s0 s : BpSt) (hd : s0.dict = []) (ho : s0.objs = []) (hr : s0.running = true) (hrun : BpRun h s0 s)
    (p : Nat × Nat) (hp : p ∈ places s) (i : Nat) (hi : i < p.2) (hne : s0.m.mem (p.1 + i) ≠ trapByte h i) (detachErr : LifeSt → Nat)
    (attached : Bool) :
    (lifeDetach detachErr { bp := s, attached }).2.bp.m.mem (p.1 + i) = trapByte h i ∧
    (lifeDetach detachErr { bp := s, attached }).2.bp.m.mem ≠ s0.m.mem := by
  rw [C109_detach]
  have := (C20_history_partial h s0 s hd ho hr hrun).1.1 p hp i hi
  exact ⟨this, fun heq => hne (by rw [← heq]; exact this)⟩

theorem bpFinals_dead (h : BpHost) : ∀ (ids : List Nat) (s : LifeSt), s.alive = false →
    (bpFinals h ids s).bp.m = s.bp.m ∧ (bpFinals h ids s).bp.r = s.bp.r ∧ (bpFinals h ids s).alive = false := by
  intro ids
  induction ids with
  | nil => intro s ha; exact ⟨rfl, rfl, ha⟩
  | cons id ids ih =>
    intro s ha
    have h1 : (bpFinal h id s).bp.m = s.bp.m ∧ (bpFinal h id s).bp.r = s.bp.r ∧ (bpFinal h id s).alive = false := by
      unfold bpFinal desinstallWeak
      rw [if_neg (by rw [ha]; decide)]
      split
      · exact ⟨rfl, rfl, ha⟩
      · exact ⟨rfl, rfl, ha⟩
    obtain ⟨g1, g2, g3⟩ := ih (bpFinal h id s) h1.2.2
    exact ⟨g1.trans h1.1, g2.trans h1.2.1, g3⟩

/-- C109. The finalisers do not help: when the object of a process is no longer used, no request about its memory or its registers is made,
whatever breakpoints are listed and in whatever order they are finalised. -/
theorem C109_final (h : BpHost) (detachErr : LifeSt → Nat) (ids : List Nat) (s : LifeSt) :
    (lifeFinal h detachErr ids s).bp.m = s.bp.m ∧ (lifeFinal h detachErr ids s).bp.r = s.bp.r := by
  unfold lifeFinal
  obtain ⟨h1, h2, _⟩ := bpFinals_dead h ids { (lifeDetach detachErr s).2 with alive := false } rfl
  rw [h1, h2]
  simp only [C109_detach, and_self]

/-- C109. `removeBreakpoint` of a breakpoint that nothing else refers to does the same as `desinstall`. -/
theorem C109_remove_partial (h : BpHost) (id : Nat) (s : LifeSt) (ha : s.alive = true) (hh : id ∉ s.held) (b : BpObj)
    (hb : s.bp.objs[id]? = some b) (hi : b.installed = true) (hr : s.bp.running = true) (t : BpSt) (hd : desinstall h id false s.bp = (.ok (), t)) :
    removeCall h id s = (.ok (), { s with bp := t }) := by
  have hnot : ¬ ¬ b.installed = true := not_not.2 hi
  unfold desinstall at hd
  rw [hb] at hd
  dsimp only at hd
  rw [if_neg hnot] at hd
  cases hw : writeBytes h.kernel b.address b.oldBytes s.bp.m with
  | mk res m1 =>
    have hon : ∀ objs dict, onMem (writeBytes h.kernel b.address b.oldBytes) ⟨s.bp.m, s.bp.r, true, objs, dict⟩ =
        (res, ⟨m1, s.bp.r, true, objs, dict⟩) := by
      intro objs dict
      unfold onMem
      simp only [hw]
    unfold Py.bind at hd
    simp only [hr, if_true] at hd
    rw [hon] at hd
    cases res with
    | error e => cases hd
    | ok u =>
      simp only [Bool.false_eq_true, if_false, Py.pure] at hd
      unfold removeBreakpoint at hd
      by_cases hhas : dictHas s.bp.dict b.address = true
      · rw [if_pos hhas] at hd
        injection hd with _ hd
        have hgone : dictHas (dictDel s.bp.dict b.address) b.address = false := by
          cases hx : dictHas (dictDel s.bp.dict b.address) b.address with
          | false => rfl
          | true =>
            obtain ⟨v, hv⟩ := dictHas_iff.1 hx
            unfold dictDel at hv
            simp at hv
        unfold removeCall
        rw [hb]
        simp only
        unfold removeBreakpoint
        rw [if_pos hhas]
        simp only [hh, if_false]
        unfold bpFinal desinstallWeak
        simp only [ha, if_true]
        unfold desinstall
        simp only [hb]
        rw [if_neg hnot]
        unfold Py.bind
        simp only [hr, if_true]
        rw [hon]
        simp only [Bool.false_eq_true, if_false, Py.pure]
        unfold removeBreakpoint
        simp only [hgone, Bool.false_eq_true, if_false]
        rw [← hd]
      · rw [if_neg hhas] at hd
        cases hd

/-- C109 is false of `removeBreakpoint` if other code still refers to the breakpoint, as `bp = process.createBreakpoint(...)` does: the entry is
gone, the trap stays. -/
theorem C109_remove_refuted (h : BpHost) (id : Nat) (s : LifeSt) (hh : id ∈ s.held) (b : BpObj) (hb : s.bp.objs[id]? = some b)
    (hl : dictHas s.bp.dict b.address = true) :
    ∃ t, removeCall h id s = (.ok (), t) ∧ t.bp.m = s.bp.m ∧ dictHas t.bp.dict b.address = false := by
  unfold removeCall
  rw [hb]
  simp only
  unfold removeBreakpoint
  rw [if_pos hl]
  simp only [hh, if_true]
  refine ⟨_, rfl, rfl, ?_⟩
  cases hx : dictHas (dictDel s.bp.dict b.address) b.address with
  | false => rfl
  | true =>
    obtain ⟨v, hv⟩ := dictHas_iff.1 hx
    unfold dictDel at hv
    simp at hv

/-! ### C110 -/

/-- C110. If no breakpoint is listed, the child of a fork has the code of the program. -/
theorem C110_fork_partial (h : BpHost) (s0 s : BpSt) (hd : s0.dict = []) (ho : s0.objs = []) (hr : s0.running = true) (hrun : BpRun h s0 s)
    (he : s.dict = []) : (forkedChild s).m.mem = s0.m.mem := (C20_history_partial h s0 s hd ho hr hrun).2 he

/-- C110 is false of children while a breakpoint is listed: the child has the trap in its code and its object knows nothing about it. -/
theorem C110_fork_refuted (h : BpHost) (s0 s : BpSt) (hd : s0.dict = []) (ho : s0.objs = []) (hr : s0.running = true) (hrun : BpRun h s0 s)
    (p : Nat × Nat) (hp : p ∈ places s) (i : Nat) (hi : i < p.2) (hne : s0.m.mem (p.1 + i) ≠ trapByte h i) :
    (forkedChild s).m.mem (p.1 + i) = trapByte h i ∧ (forkedChild s).m.mem ≠ s0.m.mem ∧ ∀ a, findBreakpoint (forkedChild s) a = none := by
  have := (C20_history_partial h s0 s hd ho hr hrun).1.1 p hp i hi
  exact ⟨this, fun heq => hne (by rw [← heq]; exact this), fun _ => rfl⟩

/-- C110. If every breakpoint was removed before, removing breakpoints again does not touch the new program. -/
theorem C110_exec_partial (h : BpHost) (s : BpSt) (mem : Nat → Byte) (r : RegSt) (id : Nat) (ip : Bool)
    (hn : ∀ b, s.objs[id]? = some b → b.installed = false) :
    desinstall h id ip (executed s mem r) = (.ok (), executed s mem r) := by
  unfold desinstall executed
  cases hb : s.objs[id]? with
  | none => simp only [hb]
  | some b => simp only [hb, hn b hb, Bool.false_eq_true, not_false_eq_true, if_true]

/-- C110 is false of breakpoints set before: removing one succeeds and writes the code of the old program over the new one. -/
theorem C110_exec_refuted (h : BpHost) (s0 s : BpSt) (hd : s0.dict = []) (ho : s0.objs = []) (hr : s0.running = true) (hrun : BpRun h s0 s)
    (mem : Nat → Byte) (r : RegSt) (id : Nat) (b : BpObj) (hb : s.objs[id]? = some b) (hi : b.installed = true) (t : BpSt)
    (hok : desinstall h id false (executed s mem r) = (.ok (), t)) :
    Written mem b.address (bytesAt s0.m.mem b.address b.size) t.m.mem ∧
    (∀ i, i < b.size → mem (b.address + i) ≠ s0.m.mem (b.address + i) → t.m.mem (b.address + i) ≠ mem (b.address + i)) := by
  have hinv := bpRun_inv h s0 s hd ho hr hrun
  have hold := (C20_listed_partial h s0 s hd ho hr hrun id b hb hi).2
  have hw : Written mem b.address (bytesAt s0.m.mem b.address b.size) t.m.mem := by
    rcases desinstall_cases h id false (executed s mem r) b hb hi hinv.running with ⟨e, m', h1, _⟩ | ⟨e, m', r', h1, _⟩ | ⟨m', r', h1, hm, _⟩
    · rw [h1] at hok; cases hok
    · rw [h1] at hok; cases hok
    · rw [h1] at hok
      injection hok with _ hok
      rw [← hok, ← hold]
      show Written mem b.address b.oldBytes m'.mem
      exact (written_iff _ _ _ _).2 hm
  refine ⟨hw, fun i hlt hne heq => hne ?_⟩
  have hlen : (bytesAt s0.m.mem b.address b.size).length = b.size := by unfold bytesAt; rw [List.length_map, List.length_range]
  have := hw.1 i (by rw [hlen]; exact hlt)
  rw [← heq, this]
  unfold bytesAt
  simp

/-- A breakpoint of one byte at 7. -/
def lifeBp : BpSt := (createBreakpoint exHost 7 none exBp).2

theorem lifeBp_run : BpRun exHost exBp lifeBp := .create1 7 none .start rfl

theorem lifeBp_places : (7, 1) ∈ places lifeBp := by decide +kernel

example := C109_final exHost (fun _ => 0) [0] { bp := lifeBp, attached := true }

example := C109_remove_partial exHost 0 { bp := lifeBp, attached := true } rfl (by decide) ⟨7, 1, [255], true⟩ (by decide +kernel) rfl (by decide +kernel) _
  (Prod.ext (by decide +kernel) rfl)

example := C110_fork_partial exHost exBp _ rfl rfl rfl (.remove 0 false lifeBp_run (Prod.ext (by decide +kernel) rfl)) (by decide +kernel)

example := C110_exec_partial exHost lifeBp (fun _ => 144) exRegs 3 false
  (fun b h => by rw [show lifeBp.objs[3]? = none by decide +kernel] at h; cases h)

/-- It stays in the code of the process that is detached, in that of the child, and is written over the next program. -/
example : (lifeDetach (fun _ => 0) { bp := lifeBp, attached := true }).2.bp.m.mem ≠ exBp.m.mem :=
  (C109_detach_refuted exHost exBp lifeBp rfl rfl rfl lifeBp_run (7, 1) lifeBp_places 0 (by decide) (by decide) (fun _ => 0) true).2
example : (forkedChild lifeBp).m.mem ≠ exBp.m.mem :=
  (C110_fork_refuted exHost exBp lifeBp rfl rfl rfl lifeBp_run (7, 1) lifeBp_places 0 (by decide) (by decide)).2.1
example : (desinstall exHost 0 false (executed lifeBp (fun _ => 144) exRegs)).1 = .ok () ∧
    (desinstall exHost 0 false (executed lifeBp (fun _ => 144) exRegs)).2.m.mem 7 = 255 := by decide +kernel
/-- `removeBreakpoint` with and without another reference. -/
example : (removeCall exHost 0 { bp := lifeBp, attached := true }).2.bp.m.mem 7 = 255 ∧
    (removeCall exHost 0 { bp := lifeBp, attached := true, held := [0] }).2.bp.m.mem 7 = 0xCC := by decide +kernel
/-- Removed before, all is well. -/
example : (lifeDetach (fun _ => 0) { bp := (desinstall exHost 0 false lifeBp).2, attached := true }).2.bp.m.mem = exBp.m.mem :=
  C109_clean_partial exHost exBp _ rfl rfl rfl (.remove 0 false lifeBp_run (Prod.ext (by decide +kernel) rfl)) (by decide +kernel) _ _

end PT
