import Verif.Lemmas.Keeps
import Verif.Lemmas.Memory2
import Verif.Spec.Session

/-! Commands of a session that only look at the process. -/

namespace PT
open PT.Spec

theorem onlyReads_pre : Preorder' OnlyReads where
  refl s := ⟨rfl, [], rfl, by simp⟩
  trans := by
    rintro s t u ⟨h1, g, hg, hp⟩ ⟨h2, g', hg', hp'⟩
    refine ⟨h2.trans h1, g' ++ g, by rw [hg', hg, List.append_assoc], ?_⟩
    intro x hx
    rcases List.mem_append.1 hx with h | h
    · exact hp' x h
    · exact hp x h

theorem sameCode_pre : Preorder' SameCode where
  refl s := ⟨onlyReads_pre.refl _, rfl, rfl, rfl⟩
  trans h1 h2 := ⟨onlyReads_pre.trans h1.memory h2.memory, h2.listed.trans h1.listed, h2.objects.trans h1.objects, h2.running.trans h1.running⟩

/-- The registers are as before. -/
def SameRegs (s t : BpSt) : Prop := t.r.regs = s.r.regs

theorem sameRegs_pre : Preorder' SameRegs := ⟨fun _ => rfl, fun h1 h2 => h2.trans h1⟩

theorem untouched_pre : Preorder' Untouched :=
  ⟨fun s => ⟨sameCode_pre.refl s, rfl⟩, fun h1 h2 => ⟨sameCode_pre.trans h1.1 h2.1, h2.2.trans h1.2⟩⟩

theorem keeps_onMem {α : Type} {f : Py MemSt α} (h : Keeps OnlyReads f) : Keeps Untouched (onMem f) :=
  fun s => ⟨⟨h s.m, rfl, rfl, rfl⟩, rfl⟩

theorem keeps_onRegs {α : Type} {f : Py RegSt α} (h : Keeps (fun s t => t.regs = s.regs) f) : Keeps Untouched (onRegs f) :=
  fun s => ⟨⟨onlyReads_pre.refl _, rfl, rfl, rfl⟩, h s.r⟩

/-- Whatever is done to the registers, the code is the same. -/
theorem keeps_onRegs_code {α : Type} (f : Py RegSt α) : Keeps SameCode (onRegs f) := fun _ => ⟨onlyReads_pre.refl _, rfl, rfl, rfl⟩

theorem readBytes_onlyReads (k : Kernel) (a n : Nat) : Keeps OnlyReads (readBytes k a n) := by
  intro s
  have h := readBytes_readRun k a n s
  obtain ⟨g, hg, hp⟩ := h.log
  refine ⟨h.mem, g, hg, ?_⟩
  intro x hx b w e
  subst e
  rcases hp _ hx with h | h | ⟨_, h, _⟩ <;> cases h

theorem readWord_onlyReads (k : Kernel) (a : Nat) : Keeps OnlyReads (readWord k a) := by
  intro s
  unfold readWord
  split
  · exact onlyReads_pre.refl s
  · exact ⟨rfl, [.peek a], rfl, by simp⟩

theorem regs_pre : Preorder' (fun s t : RegSt => t.regs = s.regs) := ⟨fun _ => rfl, fun h1 h2 => h2.trans h1⟩

theorem getregs_keeps (k : RegKernel) : Keeps (fun s t : RegSt => t.regs = s.regs) (getregs k) := by
  intro s
  unfold getregs
  dsimp only
  split <;> rfl

theorem getreg_keeps (t : RegTable) (k : RegKernel) (name : String) : Keeps (fun s t : RegSt => t.regs = s.regs) (getreg t k name) := by
  have key : ∀ (full : String) (shift : Nat) (mask : Option Nat), Keeps (fun s t : RegSt => t.regs = s.regs)
      (if full ∉ t.names then Py.raise (.ptrace none) else Py.bind (getregs k) fun regs =>
        match mask with
        | some m => if m ≠ 0 then Py.pure (regs full >>> shift &&& m) else Py.pure (regs full >>> shift)
        | none => Py.pure (regs full >>> shift)) := by
    intro full shift mask
    split
    · exact keeps_raise regs_pre _
    · refine keeps_bind regs_pre (getregs_keeps k) fun regs => ?_
      split
      · split <;> exact keeps_pure regs_pre _
      · exact keeps_pure regs_pre _
  unfold getreg
  exact key _ _ _

theorem getInstrPointer_keeps (t : RegTable) (k : RegKernel) : Keeps (fun s t : RegSt => t.regs = s.regs) (getInstrPointer t k) := by
  unfold getInstrPointer
  split
  · exact getreg_keeps _ _ _
  · exact keeps_raise regs_pre _

theorem getStackPointer_keeps (t : RegTable) (k : RegKernel) : Keeps (fun s t : RegSt => t.regs = s.regs) (getStackPointer t k) := by
  unfold getStackPointer
  split
  · exact getreg_keeps _ _ _
  · exact keeps_raise regs_pre _

theorem getFramePointer_keeps (t : RegTable) (k : RegKernel) : Keeps (fun s t : RegSt => t.regs = s.regs) (getFramePointer t k) := by
  unfold getFramePointer
  split
  · exact getreg_keeps _ _ _
  · exact keeps_raise regs_pre _

section
variable (V : ShowEnv)

theorem word_keeps (x : Int) : Keeps Untouched (V.word x) := keeps_onMem (readWord_onlyReads _ _)

theorem parse_keeps (t : Str) : Keeps Untouched (V.parse t) :=
  keeps_parseInteger untouched_pre _ _ _ (fun _ => keeps_onRegs (getreg_keeps _ _ _)) (fun _ => word_keeps V _) t

theorem mappings_keeps : Keeps Untouched V.mappings := fun s => untouched_pre.refl s

/-- The relation for the process of a code dump. -/
def onDump (R : BpSt → BpSt → Prop) (s t : DumpSt) : Prop := R s.p t.p

theorem onDump_pre : Preorder' (onDump Untouched) := ⟨fun _ => untouched_pre.refl _, fun h1 h2 => untouched_pre.trans h1 h2⟩

theorem keeps_onProc {α : Type} {f : Py BpSt α} (h : Keeps Untouched f) : Keeps (onDump Untouched) (onProc f) := fun s => h s.p

theorem keeps_logLine (l : DumpLine) : Keeps (onDump Untouched) (logLine l) := fun _ => untouched_pre.refl _

theorem procDisassembleOne_keeps (E : Disassembler) (h : BpHost) (a : Nat) : Keeps Untouched (procDisassembleOne E h a) :=
  keeps_bind untouched_pre (keeps_onMem (readBytes_onlyReads _ _ _)) fun _ => keeps_liftE untouched_pre _

theorem dumpInstr_keeps (E : Disassembler) (h : BpHost) (a : Nat) : Keeps Untouched (dumpInstr E h a) := by
  intro s
  unfold dumpInstr
  split
  · exact keeps_bind untouched_pre (keeps_liftE untouched_pre _) (fun _ => keeps_pure untouched_pre _) s
  · exact keeps_bind untouched_pre (procDisassembleOne_keeps E h a) (fun _ => keeps_pure untouched_pre _) s

theorem dumpLoop_keeps (E : Disassembler) (h : BpHost) (stop ip : Option Nat) : ∀ n a, Keeps (onDump Untouched) (dumpLoop E h stop ip n a) := by
  intro n
  induction n with
  | zero => intro a; exact keeps_pure onDump_pre _
  | succ n ih =>
    intro a
    unfold dumpLoop
    refine keeps_bind onDump_pre (keeps_onProc (dumpInstr_keeps E h a)) fun r => ?_
    refine keeps_bind onDump_pre (keeps_logLine _) fun _ => ?_
    dsimp only
    split
    · split
      · exact keeps_pure onDump_pre _
      · exact ih _
    · exact ih _

theorem dumpAll_keeps (ip : Option Nat) (l : List Instr) : Keeps (onDump Untouched) (dumpAll ip l) := by
  induction l with
  | nil => exact keeps_pure onDump_pre _
  | cons i l ih => exact keeps_bind onDump_pre (keeps_logLine _) fun _ => ih

theorem dumpCodeAt_keeps (E : Option Disassembler) (h : BpHost) (start : Nat) (stop ip : Option Nat) (b : Bool) :
    Keeps (onDump Untouched) (dumpCodeAt E h start stop ip b) := by
  unfold dumpCodeAt
  dsimp only
  split
  · exact keeps_bind onDump_pre (keeps_onProc (keeps_onMem (readBytes_onlyReads _ _ _))) fun _ => keeps_logLine _
  · refine keeps_bind onDump_pre (keeps_logLine _) fun _ => ?_
    split
    · exact dumpLoop_keeps _ _ _ _ _ _
    · refine keeps_bind onDump_pre (keeps_onProc ?_) fun _ => dumpAll_keeps _ _
      exact keeps_bind untouched_pre (keeps_onMem (readBytes_onlyReads _ _ _)) fun _ =>
        keeps_bind untouched_pre (keeps_liftE untouched_pre _) fun _ => keeps_pure untouched_pre _

theorem dumpCode_keeps (start stop : Option Nat) (b : Bool) : Keeps (onCon Untouched) (V.dumpCode start stop b) := by
  have h : Keeps (onDump Untouched) (PT.dumpCode V.disassembler V.host start stop b) := by
    unfold PT.dumpCode
    refine keeps_bind onDump_pre (keeps_exceptPtrace onDump_pre (keeps_bind onDump_pre (keeps_onProc (keeps_onRegs (getInstrPointer_keeps _ _)))
      fun _ => keeps_pure onDump_pre _) (keeps_pure onDump_pre _)) fun ip => ?_
    split
    · exact keeps_logLine _
    · exact keeps_exceptPtrace onDump_pre (dumpCodeAt_keeps _ _ _ _ _ _) (keeps_logLine _)
  intro c
  exact h { p := c.inner }

theorem dumpRegs_keeps : Keeps (onCon Untouched) V.dumpRegs := by
  have h : Keeps (onCon fun s t : RegSt => t.regs = s.regs) (PT.dumpRegs V.host.kernel.arch V.host.table V.host.regKernel V.errText) := by
    intro c
    unfold PT.dumpRegs
    have h1 := keeps_inside regs_pre (getregs_keeps V.host.regKernel) c
    generalize inside (getregs V.host.regKernel) c = x at h1 ⊢
    obtain ⟨r, d⟩ := x
    cases r with
    | ok regs => exact (onCon_pre regs_pre).trans h1 (keeps_sayAll regs_pre _ d)
    | error e =>
      dsimp only
      split
      · exact (onCon_pre regs_pre).trans h1 (keeps_say regs_pre.refl _ d)
      · exact h1
  intro c
  exact ⟨⟨onlyReads_pre.refl _, rfl, rfl, rfl⟩, h ⟨c.inner.r, c.out⟩⟩

theorem backtrace_keeps : Keeps Untouched V.backtrace :=
  keeps_getBacktrace untouched_pre _ (keeps_onRegs (getInstrPointer_keeps _ _)) (keeps_onRegs (getFramePointer_keeps _ _)) (fun _ => word_keeps V _) _ _

theorem hexdump_keeps (text : Str) : Keeps (onCon Untouched) (V.hexdump text) := by
  refine keeps_bind (onCon_pre untouched_pre) (keeps_inside untouched_pre (keeps_hexdump untouched_pre _ (parse_keeps V)
    (fun _ _ => keeps_onMem (readBytes_onlyReads _ _ _)) _ _)) fun r => ?_
  split
  · exact keeps_pure (onCon_pre untouched_pre) _
  · exact keeps_bind (onCon_pre untouched_pre) (keeps_sayAll untouched_pre _) fun _ => keeps_pure (onCon_pre untouched_pre) _

theorem info_keeps : Keeps (onCon Untouched) V.info := by
  unfold ShowEnv.info
  refine keeps_bind (onCon_pre untouched_pre) (keeps_sayAll untouched_pre _) fun _ => ?_
  split
  · exact keeps_pure (onCon_pre untouched_pre) _
  · exact keeps_raise (onCon_pre untouched_pre) _

/-- A command that shows something leaves the program alone. -/
theorem run_showing (other : Handler → Str → Py (Con BpSt) Bool) (handler : Handler) (text : Str) (h : handler ∈ showing) :
    Keeps (onCon Untouched) (V.run other handler text) := by
  have hC := onCon_pre untouched_pre
  simp only [showing, List.mem_cons, List.not_mem_nil, or_false] at h
  rcases h with rfl | rfl | rfl | rfl | rfl | rfl | rfl | rfl | rfl | rfl | rfl
  · exact keeps_silent hC (info_keeps V)
  · exact keeps_silent hC (dumpRegs_keeps V)
  · exact keeps_silent hC (keeps_dumpStack untouched_pre _ (mappings_keeps V) (keeps_onRegs (getStackPointer_keeps _ _)) (word_keeps V))
  · exact keeps_silent hC (keeps_gdbBacktrace untouched_pre _ (backtrace_keeps V))
  · exact keeps_gdbWhere hC _ (fun t => keeps_inside untouched_pre (parse_keeps V t)) (dumpCode_keeps V) _ _
  · exact keeps_gdbWhere hC _ (fun t => keeps_inside untouched_pre (parse_keeps V t)) (dumpCode_keeps V) _ _
  · exact keeps_silent hC (keeps_dumpMaps untouched_pre _ (mappings_keeps V))
  · exact fun c => keeps_silent hC (keeps_sayAll untouched_pre _) c
  · exact keeps_silent hC (keeps_sayAll untouched_pre _)
  · exact hexdump_keeps V text
  · exact keeps_gdbPrint untouched_pre _ (parse_keeps V) (mappings_keeps V) text

theorem Keeps.mono {σ α : Type} {R S : σ → σ → Prop} (h : ∀ s t, R s t → S s t) {m : Py σ α} (hm : Keeps R m) : Keeps S m := fun s => h _ _ (hm s)

/-- `set` writes registers only. -/
theorem run_set (text : Str) : Keeps (onCon SameCode) (V.set text) :=
  keeps_gdbSet sameCode_pre _ (fun t => (parse_keeps V t).mono fun _ _ h => h.1) (fun _ _ => keeps_onRegs_code _) text

end

end PT
