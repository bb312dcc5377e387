import Verif.Model.Fault
import Verif.Spec.Fault
import Verif.Lemmas.Py
import Mathlib.Tactic.ByContra

/-! C69, C75, C76, C77, C78: the reason of a memory fault, its direction, and the mappings and registers shown with it. -/

namespace PT
open Spec

/-- What a stopped process answers. -/
structure FaultView where
  siginfo : Option Nat
  instr : Except Exc Str
  ip : Except Exc Nat
  sp : Except Exc Nat
  maps : List Mapping
  reg : Str → Except Exc Nat

/-- The process always answers so, with no other errors than `PtraceError`. -/
structure Answers {σ : Type} (P : FaultProc σ) (w : FaultView) : Prop where
  siginfo : ∀ s, P.siginfo s = (.ok w.siginfo, s)
  instr : ∀ s, P.disassembleOne s = (w.instr, s)
  instrErr : ∀ e, w.instr = .error e → e.isPtrace = true
  ip : ∀ s, P.getInstrPointer s = (w.ip, s)
  ipErr : ∀ e, w.ip = .error e → e.isPtrace = true
  sp : ∀ s, P.getStackPointer s = (w.sp, s)
  maps : ∀ s, P.readMappings s = (.ok w.maps, s)
  reg : ∀ n s, P.getreg n s = (w.reg n, s)
  regErr : ∀ n e, w.reg n = .error e → e.isPtrace = true

/-- The instruction seen at the fault. -/
def FaultView.seen (w : FaultView) (v : FaultEnv) : Option Str :=
  if v.disassembler then (match w.instr with | .ok t => some t | .error _ => none) else none

/-- The instruction, if any, has a space in its text. -/
def HasOperands (i : Option Str) : Prop := ∀ t, i = some t → ' ' ∈ t

section
variable {σ : Type} {P : FaultProc σ} {w : FaultView} {v : FaultEnv}

private theorem getInstruction_eq (h : Answers P w) (s : σ) : getInstruction v P s = (.ok (w.seen v), s) := by
  unfold getInstruction FaultView.seen
  by_cases hd : v.disassembler = true
  · rw [if_pos hd, if_pos hd]
    unfold exceptPtrace
    cases hi : w.instr with
    | ok t =>
      rw [Py.run_bind_ok (show P.disassembleOne s = (.ok t, s) by rw [h.instr, hi])]
      rfl
    | error e =>
      rw [Py.run_bind_error (show P.disassembleOne s = (.error e, s) by rw [h.instr, hi])]
      simp only [h.instrErr e hi, if_true]
      rfl
  · rw [if_neg hd, if_neg hd]; rfl

/-- The registers read, from their names. -/
private def regsOf (w : FaultView) : List Str → List (Str × Nat) → List (Str × Nat)
  | [], acc => acc
  | n :: ns, acc => regsOf w ns (match w.reg (n.map Char.toLower) with
    | .ok x => setKey acc (n.map Char.toLower) x
    | .error _ => acc)

private theorem readRegisters_eq (h : Answers P w) : ∀ (names : List Str) (acc : List (Str × Nat)) (s : σ),
    readRegisters P names acc s = (.ok (regsOf w names acc), s) := by
  intro names
  induction names with
  | nil => intro acc s; rfl
  | cons n ns ih =>
    intro acc s
    unfold readRegisters regsOf
    rw [h.reg]
    cases hr : w.reg (n.map Char.toLower) with
    | ok x => exact ih _ _
    | error e =>
      simp only [h.regErr _ e hr, if_true]
      exact ih _ _

/-- The registers found in an instruction. -/
private def found (w : FaultView) (v : FaultEnv) (i : Option Str) : List (Str × Nat) :=
  match i, v.cpu with
  | none, _ => []
  | some _, .other => []
  | some asm, cpu => regsOf w (findRegisters cpu ((asm.map Char.toUpper).dropWhile (· ≠ ' ')).tail) []

private theorem toUpper_space (c : Char) : c.toUpper = ' ' ↔ c = ' ' := by
  constructor
  · intro h
    by_contra hc
    unfold Char.toUpper at h
    split at h
    · rename_i hr
      have e := congrArg UInt32.toNat (congrArg Char.val h)
      have h1 : 97 ≤ c.val.toNat := hr.1
      have h2 : c.val.toNat ≤ 122 := hr.2
      rw [UInt32.toNat_add, show ('A'.val - 'a'.val).toNat = 4294967264 by decide, show ' '.val.toNat = 32 by decide] at e
      omega
    · exact hc h
  · rintro rfl; rfl

private theorem dropWhile_space : ∀ (t : Str), ' ' ∈ t → ∃ c r, (t.map Char.toUpper).dropWhile (· ≠ ' ') = c :: r := by
  intro t
  induction t with
  | nil => intro h; cases h
  | cons c t ih =>
    intro h
    rw [List.map_cons, List.dropWhile_cons]
    by_cases hc : c = ' '
    · subst hc
      exact ⟨' ', t.map Char.toUpper, rfl⟩
    · have : c.toUpper ≠ ' ' := fun e => hc ((toUpper_space c).1 e)
      simp only [ne_eq, this, not_false_eq_true, decide_true, if_true]
      rcases List.mem_cons.1 h with h | h
      · exact absurd h.symm hc
      · exact ih h

private theorem extractRegisters_eq (h : Answers P w) (i : Option Str) (hi : HasOperands i) (s : σ) :
    extractRegisters v P i s = (.ok (found w v i), s) := by
  unfold extractRegisters found
  cases i with
  | none => rfl
  | some t =>
    cases hc : v.cpu with
    | other => rfl
    | i386 =>
      obtain ⟨c, r, hr⟩ := dropWhile_space t (hi t rfl)
      simp only [hr]
      exact readRegisters_eq h _ _ _
    | x86_64 =>
      obtain ⟨c, r, hr⟩ := dropWhile_space t (hi t rfl)
      simp only [hr]
      exact readRegisters_eq h _ _ _

/-- The mappings noted for one address. -/
private def notes (w : FaultView) (a : Int) (size : Option Nat) : List MapNote :=
  if w.maps = [] then [] else noteAddress w.maps (size.getD 0) a

private theorem findMappings_eq (h : Answers P w) (a : Int) (size : Option Nat) (s : σ) :
    findMappings P (.one a) size s = (.ok (notes w a size), s) := by
  unfold findMappings notes
  simp only []
  rw [Py.run_bind_ok (h.maps s)]
  simp only [Py.pure, List.flatMap_cons, List.flatMap_nil, List.append_nil]

private theorem signalInfo_eq (h : Answers P w) (kind : FaultKind) (a : Int) (size : Option Nat) (i : Option Str) (hi : HasOperands i)
    (regs : List (Str × Nat)) (s : σ) :
    signalInfo v P kind (.one a) size i regs s =
      (.ok ⟨kind, .one a, size, i, regs.foldl (fun d r => setKey d r.1 r.2) (found w v i), notes w a size, .none⟩, s) := by
  unfold signalInfo
  rw [Py.run_bind_ok (extractRegisters_eq h i hi s)]
  rw [Py.run_bind_ok (findMappings_eq h a size s)]
  rfl

/-- The reason shows the mappings found for its address and size. -/
def ShowsMaps (P : FaultProc σ) (r : Reason) (s : σ) : Prop := findMappings P r.address r.size s = (.ok r.mappings, s)

/-- The reason shows the registers found in its instruction, and no others. -/
def ShowsRegs (P : FaultProc σ) (v : FaultEnv) (r : Reason) (s : σ) : Prop := extractRegisters v P r.instr s = (.ok r.registers, s)

/-! ## C69 — classification -/

private theorem memoryFault_start (h : Answers P w) (hl : v.linux = true) (old : Option Reason) (s : σ) :
    memoryFault v P old s = Py.bind (instructionFault v P (some (w.siginfo.getD 0))) (fun r => match r with
      | some r => Py.pure r
      | none => Py.bind (stackFault v P (w.seen v)) fun r => match r with
        | some r => Py.pure r
        | none => accessFault v P (w.seen v) (some (w.siginfo.getD 0)) old) s := by
  unfold memoryFault
  rw [if_pos hl]
  have h1 : (Py.bind P.siginfo fun a => Py.pure (some (a.getD 0))) s = (.ok (some (w.siginfo.getD 0)), s) := by
    rw [Py.run_bind_ok (h.siginfo s)]; rfl
  rw [Py.run_bind_ok h1, Py.run_bind_ok (getInstruction_eq h s)]
  rfl

/-- A fault at the instruction pointer is an instruction error, whatever else is true. -/
theorem C69_instr (h : Answers P w) (hl : v.linux = true) (hip : w.ip = .ok (w.siginfo.getD 0)) (old : Option Reason) (s : σ) :
    ∃ r, memoryFault v P old s = (.ok r, s) ∧ r.kind = .instruction ∧ r.address = .one (w.siginfo.getD 0 : Nat) ∧
      r.registers = [("<instr pointer>".toList, w.siginfo.getD 0)] ∧ ShowsMaps P r s := by
  rw [memoryFault_start h hl]
  have hn : HasOperands none := fun t ht => by cases ht
  have h1 : ∃ r, instructionFault v P (some (w.siginfo.getD 0)) s = (.ok (some r), s) ∧ r.kind = .instruction ∧
      r.address = .one (w.siginfo.getD 0 : Nat) ∧ r.registers = [("<instr pointer>".toList, w.siginfo.getD 0)] ∧ ShowsMaps P r s := by
    unfold instructionFault exceptPtrace
    simp only []
    rw [Py.run_bind_ok (show P.getInstrPointer s = (.ok (w.siginfo.getD 0), s) by rw [h.ip, hip]), if_pos rfl,
      Py.run_bind_ok (signalInfo_eq h _ _ _ _ hn _ _)]
    exact ⟨_, rfl, rfl, rfl, rfl, findMappings_eq h _ _ _⟩
  obtain ⟨r, h1, h2⟩ := h1
  rw [Py.run_bind_ok h1]
  exact ⟨r, rfl, h2⟩

private theorem no_instr (h : Answers P w) (hip : w.ip ≠ .ok (w.siginfo.getD 0)) (s : σ) :
    instructionFault v P (some (w.siginfo.getD 0)) s = (.ok none, s) := by
  unfold instructionFault exceptPtrace
  simp only []
  cases hi : w.ip with
  | ok ip =>
    rw [Py.run_bind_ok (show P.getInstrPointer s = (.ok ip, s) by rw [h.ip, hi]), if_neg]
    · rfl
    · intro e; exact hip (by rw [hi, e])
  | error e =>
    rw [Py.run_bind_error (show P.getInstrPointer s = (.error e, s) by rw [h.ip, hi])]
    simp only [h.ipErr e hi, if_true]
    rfl

/-- Otherwise, a stack pointer below the stack or beyond its end is a stack overflow, if the instruction has operands. -/
theorem C69_stack_partial (h : Answers P w) (hl : v.linux = true) (hip : w.ip ≠ .ok (w.siginfo.getD 0)) (stack : Mapping)
    (hs : w.maps.find? (fun m => m.pathname = some "[stack]".toList) = some stack) (sp : Nat) (hsp : w.sp = .ok sp)
    (ho : sp < stack.start ∨ stack.stop < sp) (hop : HasOperands (w.seen v)) (old : Option Reason) (s : σ) :
    ∃ r, memoryFault v P old s = (.ok r, s) ∧ r.kind = .stackOverflow ∧ r.address = .one (sp : Nat) ∧
      ("<stack ptr>".toList, sp) ∈ r.registers ∧ r.instr = w.seen v ∧ r.note = .stack stack ∧ ShowsMaps P r s := by
  rw [memoryFault_start h hl, Py.run_bind_ok (no_instr h hip s)]
  have hk : ∀ (d : List (Str × Nat)) (k : Str) (x : Nat), (k, x) ∈ setKey d k x := by
    intro d k x
    induction d with
    | nil => exact List.mem_cons_self
    | cons p d ih =>
      obtain ⟨k', v'⟩ := p
      unfold setKey
      by_cases e : k' = k
      · rw [if_pos e]; exact List.mem_cons_self
      · rw [if_neg e]; exact List.mem_cons_of_mem _ ih
  have h1 : ∃ r, stackFault v P (w.seen v) s = (.ok (some r), s) ∧ r.kind = .stackOverflow ∧ r.address = .one (sp : Nat) ∧
      ("<stack ptr>".toList, sp) ∈ r.registers ∧ r.instr = w.seen v ∧ r.note = .stack stack ∧ ShowsMaps P r s := by
    unfold stackFault
    rw [Py.run_bind_ok (h.maps s)]
    unfold findStack
    rw [hs]
    simp only []
    rw [Py.run_bind_ok (show P.getStackPointer s = (.ok sp, s) by rw [h.sp, hsp]), if_pos (by omega),
      Py.run_bind_ok (signalInfo_eq h _ _ _ _ hop _ _)]
    exact ⟨_, rfl, rfl, rfl, hk _ _ _, rfl, rfl, findMappings_eq h _ _ _⟩
  obtain ⟨r, h1, h2⟩ := h1
  simp only []
  rw [Py.run_bind_ok h1]
  exact ⟨r, rfl, h2⟩

private theorem no_stack (h : Answers P w) (hs : ∀ stack, w.maps.find? (fun m => m.pathname = some "[stack]".toList) = some stack →
    ∃ sp, w.sp = .ok sp ∧ stack.start ≤ sp ∧ sp ≤ stack.stop) (i : Option Str) (s : σ) : stackFault v P i s = (.ok none, s) := by
  unfold stackFault
  rw [Py.run_bind_ok (h.maps s)]
  unfold findStack
  cases hf : w.maps.find? (fun m => m.pathname = some "[stack]".toList) with
  | none => rfl
  | some stack =>
    obtain ⟨sp, h1, h2⟩ := hs stack hf
    simp only []
    rw [Py.run_bind_ok (show P.getStackPointer s = (.ok sp, s) by rw [h.sp, h1]), if_neg (by omega)]
    rfl

private theorem access_eq (h : Answers P w) (kind : FaultKind) (a : Int) (size : Option Nat) (i : Option Str) (hi : HasOperands i)
    (regs : List (Str × Nat)) (s : σ) :
    accessReason v P kind (.one a) size i regs s =
      (.ok ⟨kind, .one a, size, i, regs.foldl (fun d r => setKey d r.1 r.2) (found w v i), notes w a size, .none⟩, s) :=
  signalInfo_eq h kind a size i hi regs s

/-- What the text of an instruction says about the kind of access, and its size. -/
private theorem movs_ok (h : Answers P w) (a : Nat) (asm : Str) (hi : HasOperands (some asm)) (isMovs : Bool) (size : Option Nat) (s : σ) :
    ∃ r, movsInstr v P (some a) asm isMovs size s = (.ok r, s) ∧ r.address = .one a ∧ r.kind ∈ [FaultKind.access, .read, .write] ∧ r.size = size ∧
      r.mappings = notes w a size := by
  unfold movsInstr
  have key : ∃ k regs, exceptPtrace (movsAccess v P (some a) isMovs) (Py.pure (.access, .one a, [])) s = (.ok (k, .one (a : Nat), regs), s) ∧
      k ∈ [FaultKind.access, .read, .write] := by
    unfold exceptPtrace movsAccess
    simp only []
    cases h1 : w.reg (if v.is64 = true then "rsi".toList else "esi".toList) with
    | error e =>
      rw [Py.run_bind_error (by rw [h.reg, h1])]
      simp only [h.regErr _ e h1, if_true]
      exact ⟨_, _, rfl, by simp⟩
    | ok x =>
      rw [Py.run_bind_ok (by rw [h.reg, h1])]
      cases isMovs with
      | false =>
        simp only [Bool.false_eq_true, if_false]
        by_cases e : a = x
        · rw [if_pos e]; exact ⟨_, _, rfl, by simp⟩
        · rw [if_neg e]; exact ⟨_, _, rfl, by simp⟩
      | true =>
        simp only [if_true]
        cases h2 : w.reg (if v.is64 = true then "rdi".toList else "edi".toList) with
        | error e =>
          rw [Py.run_bind_error (by rw [h.reg, h2])]
          simp only [h.regErr _ e h2, if_true]
          exact ⟨_, _, rfl, by simp⟩
        | ok y =>
          rw [Py.run_bind_ok (by rw [h.reg, h2])]
          by_cases e : a = y
          · rw [if_pos e]; exact ⟨_, _, rfl, by simp⟩
          · rw [if_neg e]
            by_cases e : a = x
            · rw [if_pos e]; exact ⟨_, _, rfl, by simp⟩
            · rw [if_neg e]; exact ⟨_, _, rfl, by simp⟩
  obtain ⟨k, regs, h1, h2⟩ := key
  simp only []
  rw [Py.run_bind_ok h1]
  simp only []
  rw [access_eq h _ _ _ _ hi]
  exact ⟨_, rfl, rfl, h2, rfl, rfl⟩

private theorem reason_ok (h : Answers P w) (a : Nat) (asm : Str) (hi : HasOperands (some asm)) (kind : FaultKind) (m : Option Nat × Str) (s : σ) :
    ∃ r, (Py.bind (faultAddress P (some a) m.2) fun a =>
      Py.bind (accessReason v P kind a m.1 (some asm) []) fun r => Py.pure (some r)) s = (.ok (some r), s) ∧ r.address = .one a ∧ r.kind = kind ∧
      r.size = m.1 ∧ r.instr = some asm ∧ ShowsMaps P r s ∧ ShowsRegs P v r s := by
  rw [Py.run_bind_ok (show faultAddress P (some a) m.2 s = (.ok (.one a), s) from rfl), Py.run_bind_ok (access_eq h _ _ _ _ hi _ _)]
  exact ⟨_, rfl, rfl, rfl, rfl, rfl, findMappings_eq h _ _ _, extractRegisters_eq h _ hi _⟩

/-- Otherwise, the reason is an access, a read or a write at the address of the fault, if the instruction has operands. -/
theorem C69_access_partial (h : Answers P w) (hl : v.linux = true) (hip : w.ip ≠ .ok (w.siginfo.getD 0))
    (hs : ∀ stack, w.maps.find? (fun m => m.pathname = some "[stack]".toList) = some stack → ∃ sp, w.sp = .ok sp ∧ stack.start ≤ sp ∧ sp ≤ stack.stop)
    (hop : HasOperands (w.seen v)) (s : σ) :
    ∃ r, memoryFault v P none s = (.ok r, s) ∧ r.kind ∈ [FaultKind.access, .read, .write] ∧ r.address = .one (w.siginfo.getD 0 : Nat) := by
  rw [memoryFault_start h hl, Py.run_bind_ok (no_instr h hip s)]
  simp only []
  rw [Py.run_bind_ok (no_stack h hs _ s)]
  simp only []
  unfold accessFault
  cases hi : w.seen v with
  | none =>
    simp only []
    rw [access_eq h _ _ _ _ (fun t ht => by cases ht)]
    exact ⟨_, rfl, by simp, rfl⟩
  | some asm =>
    rw [hi] at hop
    simp only []
    have key : ∃ o, memoryFaultInstr v P asm (some (w.siginfo.getD 0)) s = (.ok o, s) ∧
        ∀ r, o = some r → r.kind ∈ [FaultKind.access, .read, .write] ∧ r.address = .one (w.siginfo.getD 0 : Nat) := by
      unfold memoryFaultInstr
      simp only []
      cases matchWrite asm with
      | some m =>
        obtain ⟨r, e1, e2, e3, _⟩ := reason_ok (v := v) h (w.siginfo.getD 0) asm hop .write m s
        refine ⟨_, e1, ?_⟩
        rintro _ ⟨⟩
        exact ⟨by rw [e3]; simp, e2⟩
      | none =>
        simp only []
        cases matchRead asm with
        | some m =>
          obtain ⟨r, e1, e2, e3, _⟩ := reason_ok (v := v) h (w.siginfo.getD 0) asm hop .read m s
          refine ⟨_, e1, ?_⟩
          rintro _ ⟨⟩
          exact ⟨by rw [e3]; simp, e2⟩
        | none =>
          simp only []
          cases matchSource asm with
          | some m =>
            obtain ⟨r, e1, e2, e3, _⟩ := reason_ok (v := v) h (w.siginfo.getD 0) asm hop .read m s
            refine ⟨_, e1, ?_⟩
            rintro _ ⟨⟩
            exact ⟨by rw [e3]; simp, e2⟩
          | none =>
            simp only []
            cases matchString asm with
            | none => exact ⟨none, rfl, (fun r hr => by cases hr)⟩
            | some m =>
              obtain ⟨r, e1, e2, e3, _⟩ := movs_ok (v := v) h (w.siginfo.getD 0) asm hop m.1 m.2 s
              refine ⟨some r, ?_, ?_⟩
              · simp only []
                rw [Py.run_bind_ok e1]
                rfl
              · rintro _ ⟨⟩
                exact ⟨e3, e2⟩
    obtain ⟨o, h1, h2⟩ := key
    rw [Py.run_bind_ok h1]
    cases o with
    | some r => exact ⟨r, rfl, (h2 r rfl).1, (h2 r rfl).2⟩
    | none =>
      simp only [Option.or]
      rw [access_eq h _ _ _ _ hop]
      exact ⟨_, rfl, by simp, rfl⟩

private theorem extract_state (h : Answers P w) (i : Option Str) (s : σ) : (extractRegisters v P i s).2 = s := by
  unfold extractRegisters
  cases i with
  | none => rfl
  | some asm =>
    cases v.cpu with
    | other => rfl
    | i386 =>
      simp only []
      cases (asm.map Char.toUpper).dropWhile (· ≠ ' ') with
      | nil => rfl
      | cons c r => simp only []; rw [readRegisters_eq h]
    | x86_64 =>
      simp only []
      cases (asm.map Char.toUpper).dropWhile (· ≠ ' ') with
      | nil => rfl
      | cons c r => simp only []; rw [readRegisters_eq h]

private theorem access_state (h : Answers P w) (kind : FaultKind) (a : Int) (size : Option Nat) (i : Option Str) (regs : List (Str × Nat)) (s : σ) :
    (accessReason v P kind (.one a) size i regs s).2 = s := by
  unfold accessReason signalInfo
  simp only []
  have := extract_state (v := v) h i s
  cases he : extractRegisters v P i s with
  | mk o t =>
    rw [he] at this
    simp only at this
    subst this
    cases o with
    | error e => rw [Py.run_bind_error he]
    | ok found => rw [Py.run_bind_ok he, Py.run_bind_ok (findMappings_eq h a size t)]; rfl

/-- Analysing again (as `display` does) gives the same reason. -/
theorem C69_again (h : Answers P w) (hl : v.linux = true) (s s' : σ) (r : Reason) (hr : memoryFault v P none s = (.ok r, s')) :
    memoryFault v P (some r) s = (.ok r, s') := by
  rw [memoryFault_start h hl] at hr ⊢
  cases h1 : instructionFault v P (some (w.siginfo.getD 0)) s with
  | mk o t =>
    cases o with
    | error e => rw [Py.run_bind_error h1] at hr; cases hr
    | ok o =>
      rw [Py.run_bind_ok h1] at hr ⊢
      cases o with
      | some q => exact hr
      | none =>
        simp only [] at hr ⊢
        cases h2 : stackFault v P (w.seen v) t with
        | mk o u =>
          cases o with
          | error e => rw [Py.run_bind_error h2] at hr; cases hr
          | ok o =>
            rw [Py.run_bind_ok h2] at hr ⊢
            cases o with
            | some q => exact hr
            | none =>
              simp only [] at hr ⊢
              unfold accessFault at hr ⊢
              cases hi : w.seen v with
              | none => rw [hi] at hr; exact hr
              | some asm =>
                rw [hi] at hr
                simp only [] at hr ⊢
                cases h3 : memoryFaultInstr v P asm (some (w.siginfo.getD 0)) u with
                | mk o x =>
                  cases o with
                  | error e => rw [Py.run_bind_error h3] at hr; cases hr
                  | ok o =>
                    rw [Py.run_bind_ok h3] at hr ⊢
                    cases o with
                    | some q => exact hr
                    | none =>
                      simp only [Option.or] at hr ⊢
                      have := access_state (v := v) h .access (w.siginfo.getD 0 : Nat) none (some asm) [] x
                      rw [hr] at this
                      rw [← this]
                      rfl

end

/-- A process given by its answers. -/
def procOf (w : FaultView) : FaultProc Unit where
  siginfo := fun s => (.ok w.siginfo, s)
  child := Py.pure (0, 0, 0)
  disassembleOne := fun s => (w.instr, s)
  getInstrPointer := fun s => (w.ip, s)
  getStackPointer := fun s => (w.sp, s)
  readMappings := fun s => (.ok w.maps, s)
  getreg := fun n s => (w.reg n, s)
  parseExpression := fun _ => Py.raise .value

/-- Linux on x86_64 with a disassembler. -/
def demoFault : FaultEnv := ⟨true, true, .x86_64, true⟩

private def stackMap : Mapping := ⟨0x7000, 0x9000, "rw-p".toList, 0, 0, 0, 0, some "[stack]".toList⟩
private def codeMap : Mapping := ⟨0x1000, 0x2000, "r-xp".toList, 0, 0, 0, 0, some "/bin/ls".toList⟩
private def demoView : FaultView where
  siginfo := some 0x5000
  instr := .ok "MOV DWORD [RAX+0x8], 0x1".toList
  ip := .ok 0x1004
  sp := .ok 0x8000
  maps := [codeMap, stackMap]
  reg := fun n => if n = "rax".toList then .ok 0x4ff8 else if n = "rsi".toList then .ok 0x5000 else if n = "rdi".toList then .ok 0x6000 else
    .error (.ptrace none)

private theorem answers_of (w : FaultView) (h1 : ∀ e, w.instr = .error e → e.isPtrace = true) (h2 : ∀ e, w.ip = .error e → e.isPtrace = true)
    (h3 : ∀ n e, w.reg n = .error e → e.isPtrace = true) : Answers (procOf w) w :=
  ⟨fun _ => rfl, fun _ => rfl, h1, fun _ => rfl, h2, fun _ => rfl, fun _ => rfl, fun _ _ => rfl, h3⟩

private theorem demo_reg (n : Str) (e : Exc) (h : demoView.reg n = .error e) : e.isPtrace = true := by
  simp only [demoView] at h
  split at h
  · cases h
  · split at h
    · cases h
    · split at h
      · cases h
      · injection h with h; rw [← h]; rfl

-- a jump to an unmapped address, a stack overflow, a write
example := C69_instr (v := demoFault) (answers_of { demoView with siginfo := some 0x1004 } (fun e h => by cases h) (fun e h => by cases h) demo_reg) rfl rfl none ()

example := C69_stack_partial (v := demoFault) (answers_of { demoView with sp := .ok 0x6ff8 } (fun e h => by cases h) (fun e h => by cases h) demo_reg) rfl
  (by decide) stackMap (by decide +kernel) 0x6ff8 rfl (.inl (by decide)) (fun t ht => by cases ht; decide +kernel) none ()

example := C69_access_partial (v := demoFault) (answers_of demoView (fun e h => by cases h) (fun e h => by cases h) demo_reg) rfl (by decide)
  (fun stack h => by
    have e : stack = stackMap := Option.some.inj (h.symm.trans (by decide +kernel))
    subst e
    exact ⟨0x8000, rfl, by decide, by decide⟩)
  (fun t ht => by cases ht; decide +kernel) ()

example : Answers (procOf demoView) demoView ∧ HasOperands (demoView.seen demoFault) ∧
    (memoryFault demoFault (procOf demoView) none ()).1.toOption.map Reason.kind = some .write :=
  ⟨answers_of _ (fun e h => by cases h) (fun e h => by cases h) demo_reg, fun t ht => by cases ht; decide +kernel, by decide +kernel⟩

example : (memoryFault demoFault (procOf { demoView with sp := .ok 0x6ff8 }) none ()).1.toOption.map Reason.kind = some .stackOverflow ∧
    (memoryFault demoFault (procOf { demoView with siginfo := some 0x1004 }) none ()).1.toOption.map Reason.kind = some .instruction := by
  decide +kernel

/-- An instruction without operands, such as `RET`, and a stack pointer outside the stack: no reason at all, but `IndexError`. -/
theorem C69_refuted : ∃ w, Answers (procOf w) w ∧ w.seen demoFault = some "RET".toList ∧
    memoryFault demoFault (procOf w) none () = (.error .index, ()) :=
  ⟨{ demoView with instr := .ok "RET".toList }, answers_of _ (fun e h => by cases h) (fun e h => by cases h) demo_reg, rfl, by decide +kernel⟩

/-- A stack pointer at the end of the stack is outside of it, but is not reported. -/
theorem C69_edge_refuted : ∃ w, Answers (procOf w) w ∧ w.sp = .ok stackMap.stop ∧ ¬ InMapping stackMap stackMap.stop ∧
    (memoryFault demoFault (procOf w) none ()).1.toOption.map Reason.kind = some .write :=
  ⟨{ demoView with sp := .ok stackMap.stop }, answers_of _ (fun e h => by cases h) (fun e h => by cases h) demo_reg, rfl,
    fun h => absurd h.2 (by decide), by decide +kernel⟩

/-- Without siginfo (not on Linux), a fault in `MOVS` gives a pair of addresses, which cannot be formatted: `TypeError`. -/
theorem C69_pair_refuted : ∃ w, Answers (procOf w) w ∧
    memoryFault { demoFault with linux := false } (procOf w) none () = (.error .type, ()) :=
  ⟨{ demoView with instr := .ok "MOVSB ".toList }, answers_of _ (fun e h => by cases h) (fun e h => by cases h) demo_reg, by decide +kernel⟩

/-! ## C75 — direction and size of the access -/

private theorem take_until {p : Char → Bool} : ∀ (e : Str) (c : Char) (rest : Str), (∀ x ∈ e, p x = true) → p c = false →
    (e ++ c :: rest).takeWhile p = e ∧ (e ++ c :: rest).dropWhile p = c :: rest := by
  intro e
  induction e with
  | nil => intro c rest _ hc; simp [hc]
  | cons x e ih =>
    intro c rest he hc
    have hx := he x List.mem_cons_self
    obtain ⟨h1, h2⟩ := ih c rest (fun y hy => he y (List.mem_cons_of_mem _ hy)) hc
    rw [List.cons_append, List.takeWhile_cons, List.dropWhile_cons, hx]
    exact ⟨by rw [if_pos rfl, h1], by rw [if_pos rfl, h2]⟩

private theorem not_mem_all {c : Char} {e : Str} (h : c ∉ e) : ∀ x ∈ e, decide (x ≠ c) = true := by
  intro x hx
  rw [decide_eq_true_eq]
  rintro rfl
  exact h hx

private theorem eat_append : ∀ (p s : Str), eat p (p ++ s) = some s := by
  intro p
  induction p with
  | nil => intro s; rfl
  | cons a p ih => intro s; rw [List.cons_append, eat, if_pos rfl, ih]

private theorem eat_some : ∀ (p s t : Str), eat p s = some t → s = p ++ t := by
  intro p
  induction p with
  | nil => intro s t h; rw [eat] at h; injection h
  | cons a p ih =>
    intro s t h
    cases s with
    | nil => cases h
    | cons b s =>
      rw [eat] at h
      by_cases e : a = b
      · rw [if_pos e] at h
        rw [ih s t h, e]; rfl
      · rw [if_neg e] at h; cases h

private theorem matchDeref_of (d : Str) (size : Option Nat) (e rest : Str) (h : IsDeref d size e) : matchDeref (d ++ rest) = some (size, e, rest) := by
  obtain ⟨p, rfl, hne, hb, hp⟩ := h
  obtain ⟨t1, t2⟩ := take_until (p := fun x => decide (x ≠ ']')) e ']' rest (not_mem_all hb) (by simp)
  have hd : ∀ t, t = '[' :: (e ++ ']' :: rest) → ∀ sz : Option Nat, (match t with
      | '[' :: t =>
        match t.takeWhile (· ≠ ']'), t.dropWhile (· ≠ ']') with
        | e :: es, _ :: rest => some (sz, e :: es, rest)
        | _, _ => none
      | _ => none) = some (sz, e, rest) := by
    rintro t rfl sz
    simp only []
    rw [t1, t2]
    cases e with
    | nil => exact absurd rfl hne
    | cons x xs => rfl
  have assoc : ∀ p : Str, (p ++ '[' :: (e ++ [']'])) ++ rest = p ++ '[' :: (e ++ ']' :: rest) := by
    intro p; simp
  rw [assoc]
  rcases hp with ⟨rfl, rfl⟩ | ⟨rfl, rfl⟩ | ⟨rfl, rfl⟩ | ⟨rfl, rfl⟩
  · exact hd _ rfl none
  · exact hd _ rfl (some 1)
  · exact hd _ rfl (some 2)
  · exact hd _ rfl (some 4)

private theorem matchDeref_inv (u : Str) (r : Option Nat × Str × Str) (h : matchDeref u = some r) : ∃ p t, u = p ++ '[' :: t ∧ ',' ∉ p := by
  unfold matchDeref at h
  simp only [] at h
  cases hs : (namedWordSize.findSome? fun p => (eat (p.1 ++ [' ']) u).bind fun t => if t.head? = some '[' then some (p.2, t) else none) with
  | none =>
    rw [hs] at h
    simp only [Option.map_none, Option.getD_none] at h
    cases u with
    | nil => cases h
    | cons c u =>
      by_cases hc : c = '['
      · exact ⟨[], u, by rw [hc]; rfl, by simp⟩
      · exfalso
        split at h
        · rename_i heq
          injection heq with e _
          exact hc e
        · cases h
  | some q =>
    obtain ⟨x, hx, he⟩ := List.exists_of_findSome?_eq_some hs
    cases ht : eat (x.1 ++ [' ']) u with
    | none => rw [ht] at he; cases he
    | some t =>
      rw [ht] at he
      simp only [Option.bind_some] at he
      have hu := eat_some _ _ _ ht
      cases t with
      | nil => cases he
      | cons c t =>
        by_cases hc : c = '['
        · refine ⟨x.1 ++ [' '], t, by rw [hu, hc], ?_⟩
          simp only [namedWordSize, List.mem_cons, List.not_mem_nil, or_false] at hx
          rcases hx with rfl | rfl | rfl | rfl <;> decide
        · simp [hc] at he

private theorem matchDeref_none (dst rest : Str) (h1 : ',' ∉ dst) (h2 : '[' ∉ dst) : matchDeref (dst ++ ',' :: rest) = none := by
  cases h : matchDeref (dst ++ ',' :: rest) with
  | none => rfl
  | some r =>
    exfalso
    obtain ⟨p, t, hp, hc⟩ := matchDeref_inv _ r h
    rcases List.append_eq_append_iff.1 hp with ⟨a, h3, h4⟩ | ⟨a, h3, h4⟩
    · cases a with
      | nil => rw [List.nil_append] at h4; injection h4 with h4 _; exact absurd h4 (by decide)
      | cons x a =>
        injection h4 with h4 _
        rw [h3, ← h4] at hc
        exact hc (by simp)
    · cases a with
      | nil => rw [List.nil_append] at h4; injection h4 with h4 _; exact absurd h4 (by decide)
      | cons x a =>
        injection h4 with h4 _
        rw [h3, ← h4] at h2
        exact h2 (by simp)

private theorem isUp_of {op : Str} (h : IsMnemonic op) : ∀ c ∈ op, isUp c = true := by
  intro c hc
  unfold isUp
  exact decide_eq_true (h c hc)

private theorem op_split (op u : Str) (h : IsMnemonic op) : (op ++ ' ' :: u).takeWhile isUp = op ∧ (op ++ ' ' :: u).dropWhile isUp = ' ' :: u :=
  take_until op ' ' u (isUp_of h) (by decide)

private theorem matchOperator_of (op u : Str) (h : IsMnemonic op) (h3 : 3 ≤ op.length) (h10 : op.length ≤ 10) : matchOperator (op ++ ' ' :: u) = some u := by
  unfold matchOperator
  obtain ⟨e1, e2⟩ := op_split op u h
  rw [e1, e2, if_pos ⟨h3, h10⟩]
  rfl

private theorem prefix_of (p t op u : Str) (hp : ' ' ∉ p) (h : op ++ ' ' :: u = p ++ t) : ∃ l, op = p ++ l ∧ t = l ++ ' ' :: u := by
  rcases List.append_eq_append_iff.1 h with ⟨a, h1, h2⟩ | ⟨a, h1, h2⟩
  · cases a with
    | nil => exact ⟨[], by rw [h1]; simp, by rw [h2]; rfl⟩
    | cons x a =>
      injection h2 with h2 _
      rw [h1, ← h2] at hp
      exact absurd (by simp) hp
  · exact ⟨a, h1, h2⟩

/-- `matchWrite` fails if the first operand is none in memory, or if the operator is another. -/
private theorem matchWrite_none (op u : Str) (hm : IsMnemonic op)
    (h : (¬ "MOV".toList <+: op ∧ ¬ "TEST".toList <+: op) ∨ matchDeref u = none) : matchWrite (op ++ ' ' :: u) = none := by
  unfold matchWrite
  have key : ∀ p : Str, ' ' ∉ p → ∀ t, eat p (op ++ ' ' :: u) = some t → p <+: op ∧ t.dropWhile isUp = ' ' :: u := by
    intro p hp t ht
    obtain ⟨l, e1, e2⟩ := prefix_of p t op u hp (eat_some _ _ _ ht)
    refine ⟨⟨l, e1.symm⟩, ?_⟩
    rw [e2]
    exact (op_split l u (fun c hc => hm c (by rw [e1]; exact List.mem_append_right _ hc))).2
  cases h1 : (eat "MOV".toList (op ++ ' ' :: u)).or (eat "TEST".toList (op ++ ' ' :: u)) with
  | none => rfl
  | some t =>
    have : ("MOV".toList <+: op ∨ "TEST".toList <+: op) ∧ t.dropWhile isUp = ' ' :: u := by
      cases h2 : eat "MOV".toList (op ++ ' ' :: u) with
      | some t' =>
        rw [h2] at h1
        injection h1 with h1
        subst h1
        have := key _ (by decide) _ h2
        exact ⟨Or.inl this.1, this.2⟩
      | none =>
        rw [h2] at h1
        have h1 : eat "TEST".toList (op ++ ' ' :: u) = some t := h1
        have := key _ (by decide) _ h1
        exact ⟨Or.inr this.1, this.2⟩
    simp only []
    rw [this.2]
    simp only []
    rcases h with h | h
    · exact absurd this.1 (by rintro (x | x); exact h.1 x; exact h.2 x)
    · rw [h]

/-- The state of a memory fault that is neither an instruction error nor a stack overflow. -/
def AccessFault {σ : Type} (P : FaultProc σ) (w : FaultView) (v : FaultEnv) (asm : Str) : Prop :=
  Answers P w ∧ v.linux = true ∧ w.ip ≠ .ok (w.siginfo.getD 0) ∧
  (∀ stack, w.maps.find? (fun m => m.pathname = some "[stack]".toList) = some stack → ∃ sp, w.sp = .ok sp ∧ stack.start ≤ sp ∧ sp ≤ stack.stop) ∧
  w.seen v = some asm

section
variable {σ : Type} {P : FaultProc σ} {w : FaultView} {v : FaultEnv} {asm : Str}

private theorem access_start (h : AccessFault P w v asm) (s : σ) : memoryFault v P none s = Py.bind (memoryFaultInstr v P asm (some (w.siginfo.getD 0)))
    (fun r => match r.or none with
      | some r => Py.pure r
      | none => accessReason v P .access (.one (w.siginfo.getD 0 : Nat)) none (some asm) []) s := by
  obtain ⟨h1, h2, h3, h4, h5⟩ := h
  rw [memoryFault_start h1 h2, Py.run_bind_ok (no_instr h1 h3 s)]
  simp only []
  rw [Py.run_bind_ok (no_stack h1 h4 _ s), h5]
  rfl

private theorem access_write (h : AccessFault P w v asm) (hsp : ' ' ∈ asm) (m : Option Nat × Str) (hm : matchWrite asm = some m) (s : σ) :
    ∃ r, memoryFault v P none s = (.ok r, s) ∧ r.kind = .write ∧ r.address = .one (w.siginfo.getD 0 : Nat) ∧ r.size = m.1 ∧
      r.instr = some asm ∧ ShowsMaps P r s ∧ ShowsRegs P v r s := by
  rw [access_start h]
  obtain ⟨r, e1, e2, e3, e4⟩ := reason_ok (v := v) h.1 (w.siginfo.getD 0) asm (by rintro _ ⟨⟩; exact hsp) .write m s
  have : memoryFaultInstr v P asm (some (w.siginfo.getD 0)) s = (.ok (some r), s) := by
    unfold memoryFaultInstr
    rw [hm]
    exact e1
  rw [Py.run_bind_ok this]
  exact ⟨r, rfl, e3, e2, e4⟩

private theorem access_read (h : AccessFault P w v asm) (hsp : ' ' ∈ asm) (m : Option Nat × Str) (h1 : matchWrite asm = none)
    (hm : matchRead asm = some m ∨ matchRead asm = none ∧ matchSource asm = some m) (s : σ) :
    ∃ r, memoryFault v P none s = (.ok r, s) ∧ r.kind = .read ∧ r.address = .one (w.siginfo.getD 0 : Nat) ∧ r.size = m.1 ∧
      r.instr = some asm ∧ ShowsMaps P r s ∧ ShowsRegs P v r s := by
  rw [access_start h]
  obtain ⟨r, e1, e2, e3, e4⟩ := reason_ok (v := v) h.1 (w.siginfo.getD 0) asm (by rintro _ ⟨⟩; exact hsp) .read m s
  have : memoryFaultInstr v P asm (some (w.siginfo.getD 0)) s = (.ok (some r), s) := by
    unfold memoryFaultInstr
    rw [h1]
    rcases hm with hm | ⟨hm1, hm⟩
    · rw [hm]; exact e1
    · rw [hm1, hm]; exact e1
  rw [Py.run_bind_ok this]
  exact ⟨r, rfl, e3, e2, e4⟩

/-- A move into memory is a write, with the size of its operand. -/
theorem C75_write (op d e rest : Str) (size : Option Nat) (hop : IsMnemonic op) (hmov : "MOV".toList <+: op) (hd : IsDeref d size e)
    (h : AccessFault P w v (op ++ ' ' :: (d ++ ',' :: rest))) (s : σ) :
    ∃ r, memoryFault v P none s = (.ok r, s) ∧ r.kind = .write ∧ r.address = .one (w.siginfo.getD 0 : Nat) ∧ r.size = size ∧
      r.instr = w.seen v ∧ ShowsMaps P r s ∧ ShowsRegs P v r s := by
  rw [h.2.2.2.2]
  refine access_write h (by simp) (size, e) ?_ s
  obtain ⟨l, rfl⟩ := hmov
  unfold matchWrite
  rw [List.append_assoc, eat_append]
  simp only [Option.some_or]
  rw [(op_split l _ (fun c hc => hop c (List.mem_append_right _ hc))).2]
  simp only []
  rw [matchDeref_of d size e _ hd]
  rfl

/-- Another operator with its first operand in memory is a read (it reads the operand before it may write it). -/
theorem C75_operand (op d e rest : Str) (size : Option Nat) (hop : IsMnemonic op) (h3 : 3 ≤ op.length) (h10 : op.length ≤ 10)
    (hmov : ¬ "MOV".toList <+: op) (htest : ¬ "TEST".toList <+: op) (hd : IsDeref d size e)
    (h : AccessFault P w v (op ++ ' ' :: (d ++ ',' :: rest))) (s : σ) :
    ∃ r, memoryFault v P none s = (.ok r, s) ∧ r.kind = .read ∧ r.address = .one (w.siginfo.getD 0 : Nat) ∧ r.size = size ∧
      r.instr = w.seen v ∧ ShowsMaps P r s ∧ ShowsRegs P v r s := by
  rw [h.2.2.2.2]
  refine access_read h (by simp) (size, e) (matchWrite_none op _ hop (Or.inl ⟨hmov, htest⟩)) (Or.inl ?_) s
  unfold matchRead
  rw [matchOperator_of op _ hop h3 h10]
  simp only []
  rw [matchDeref_of d size e _ hd]
  rfl

/-- An operator with its second operand in memory is a read. -/
theorem C75_source (op dst d e rest : Str) (size : Option Nat) (hop : IsMnemonic op) (h3 : 3 ≤ op.length) (h10 : op.length ≤ 10)
    (hne : dst ≠ []) (hcomma : ',' ∉ dst) (hbr : '[' ∉ dst) (hd : IsDeref d size e)
    (h : AccessFault P w v (op ++ ' ' :: (dst ++ ',' :: ' ' :: (d ++ rest)))) (s : σ) :
    ∃ r, memoryFault v P none s = (.ok r, s) ∧ r.kind = .read ∧ r.address = .one (w.siginfo.getD 0 : Nat) ∧ r.size = size ∧
      r.instr = w.seen v ∧ ShowsMaps P r s ∧ ShowsRegs P v r s := by
  rw [h.2.2.2.2]
  have hno := matchDeref_none dst (' ' :: (d ++ rest)) hcomma hbr
  refine access_read h (by simp) (size, e) (matchWrite_none op _ hop (Or.inr hno)) (Or.inr ⟨?_, ?_⟩) s
  · unfold matchRead
    rw [matchOperator_of op _ hop h3 h10]
    simp only []
    rw [hno]
  · unfold matchSource
    rw [matchOperator_of op _ hop h3 h10]
    obtain ⟨t1, t2⟩ := take_until (p := fun x => decide (x ≠ ',')) dst ',' (' ' :: (d ++ rest)) (not_mem_all hcomma) (by simp)
    simp only []
    rw [t1, t2]
    cases dst with
    | nil => exact absurd rfl hne
    | cons x xs =>
      simp only []
      rw [matchDeref_of d size e _ hd]

/-- The copies of bytes, words and double words, with their size. -/
def copies : List (Str × Nat) := [("MOVSB ".toList, 1), ("MOVSW ".toList, 2), ("MOVSD ".toList, 4), ("REP MOVSB ".toList, 1), ("REP MOVSW ".toList, 2),
  ("REP MOVSD ".toList, 4)]

private theorem copies_match : ∀ c ∈ copies, matchWrite c.1 = none ∧ matchRead c.1 = none ∧ matchSource c.1 = none ∧
    matchString c.1 = some (true, some c.2) ∧ ' ' ∈ c.1 := by decide +kernel

/-- A copy writes at its destination and reads at its source. -/
theorem C75_string (c : Str × Nat) (hc : c ∈ copies) (h : AccessFault P w v c.1) (src dst : Nat)
    (hsrc : w.reg (if v.is64 then "rsi".toList else "esi".toList) = .ok src) (hdst : w.reg (if v.is64 then "rdi".toList else "edi".toList) = .ok dst)
    (s : σ) :
    ∃ r, memoryFault v P none s = (.ok r, s) ∧ r.size = some c.2 ∧ r.address = .one (w.siginfo.getD 0 : Nat) ∧ r.instr = some c.1 ∧ ShowsMaps P r s ∧
      (w.siginfo.getD 0 = dst → r.kind = .write) ∧ (w.siginfo.getD 0 = src → src ≠ dst → r.kind = .read) ∧
      (w.siginfo.getD 0 ≠ src → w.siginfo.getD 0 ≠ dst → r.kind = .access) := by
  obtain ⟨m1, m2, m3, m4, m5⟩ := copies_match c hc
  rw [access_start h]
  generalize ha : w.siginfo.getD 0 = a
  have hm : ∃ k regs, movsAccess v P (some a) true s = (.ok (k, .one (a : Nat), regs), s) ∧ (a = dst → k = .write) ∧
      (a = src → src ≠ dst → k = .read) ∧ (a ≠ src → a ≠ dst → k = .access) := by
    unfold movsAccess
    simp only []
    rw [Py.run_bind_ok (by rw [h.1.reg, hsrc])]
    simp only [if_true]
    rw [Py.run_bind_ok (by rw [h.1.reg, hdst])]
    refine ⟨_, _, rfl, fun e => if_pos e, fun e1 e2 => ?_, fun e1 e2 => ?_⟩
    · rw [if_neg (by rw [e1]; exact e2), if_pos e1]
    · rw [if_neg e2, if_neg e1]
  obtain ⟨k, regs, e1, e2⟩ := hm
  have hr : ∃ r, memoryFaultInstr v P c.1 (some a) s = (.ok (some r), s) ∧ r.size = some c.2 ∧ r.address = .one (a : Nat) ∧ r.kind = k ∧
      r.instr = some c.1 ∧ ShowsMaps P r s := by
    unfold memoryFaultInstr
    rw [m1, m2, m3, m4]
    simp only []
    have : ∃ r, movsInstr v P (some a) c.1 true (some c.2) s = (.ok r, s) ∧ r.size = some c.2 ∧ r.address = .one (a : Nat) ∧ r.kind = k ∧
      r.instr = some c.1 ∧ ShowsMaps P r s := by
      unfold movsInstr
      have : exceptPtrace (movsAccess v P (some a) true) (Py.pure (FaultKind.access, FaultAddr.one (a : Nat), [])) s =
          (.ok (k, .one (a : Nat), regs), s) := by
        unfold exceptPtrace
        rw [e1]
      simp only []
      rw [Py.run_bind_ok this, access_eq h.1 _ _ _ _ (by rintro _ ⟨⟩; exact m5)]
      exact ⟨_, rfl, rfl, rfl, rfl, rfl, findMappings_eq h.1 _ _ _⟩
    obtain ⟨r, h1, h2⟩ := this
    rw [Py.run_bind_ok h1]
    exact ⟨r, rfl, h2⟩
  obtain ⟨r, h1, h2, h3, rfl, h4, h5⟩ := hr
  rw [Py.run_bind_ok h1]
  exact ⟨r, rfl, h2, h3, h4, h5, e2⟩

end

private def moveView (asm : String) (fault : Nat) : FaultView := { demoView with instr := .ok asm.toList, siginfo := some fault }

private theorem move_access (asm : String) (fault : Nat) (h : fault ≠ 0x1004) :
    AccessFault (procOf (moveView asm fault)) (moveView asm fault) demoFault asm.toList := by
  refine ⟨answers_of _ (fun e h => by cases h) (fun e h => by cases h) demo_reg, rfl, ?_, ?_, rfl⟩
  · intro e
    injection e with e
    exact h e.symm
  · intro stack hst
    refine ⟨0x8000, rfl, ?_⟩
    have : stack = stackMap := by
      have e : (moveView asm fault).maps.find? (fun m => m.pathname = some "[stack]".toList) = some stackMap := rfl
      rw [e] at hst
      injection hst with hst
      exact hst.symm
    rw [this]
    decide

example := C75_write "MOV".toList "DWORD [RAX+0x8]".toList "RAX+0x8".toList " 0x1".toList (some 4) (by unfold IsMnemonic; decide +kernel) ⟨[], rfl⟩
  ⟨"DWORD ".toList, rfl, by decide, by decide, by simp⟩ (move_access "MOV DWORD [RAX+0x8], 0x1" 0x5000 (by decide)) ()

example := C75_operand "CMP".toList "BYTE [EAX]".toList "EAX".toList " 0x0".toList (some 1) (by unfold IsMnemonic; decide +kernel) (by decide) (by decide)
  (by decide) (by decide) ⟨"BYTE ".toList, rfl, by decide, by decide, by simp⟩ (move_access "CMP BYTE [EAX], 0x0" 0x5000 (by decide)) ()

example := C75_source "MOV".toList "EAX".toList "[RBX]".toList "RBX".toList [] none (by unfold IsMnemonic; decide +kernel) (by decide) (by decide)
  (by decide) (by decide) (by decide) ⟨[], rfl, by decide, by decide, by simp⟩ (move_access "MOV EAX, [RBX]" 0x5000 (by decide)) ()

example : AccessFault (procOf (moveView "MOV DWORD [RAX+0x8], 0x1" 0x5000)) (moveView "MOV DWORD [RAX+0x8], 0x1" 0x5000) demoFault
      "MOV DWORD [RAX+0x8], 0x1".toList ∧ IsDeref "DWORD [RAX+0x8]".toList (some 4) "RAX+0x8".toList :=
  ⟨move_access _ _ (by decide), "DWORD ".toList, rfl, by decide, by decide, by simp⟩

/-- `TEST` does not write, `MOVS` reads too: the fault at its source is said to be an invalid write. -/
theorem C75_refuted :
    (AccessFault (procOf (moveView "TEST [RAX], RBX" 0x5000)) (moveView "TEST [RAX], RBX" 0x5000) demoFault "TEST [RAX], RBX".toList ∧
      (memoryFault demoFault (procOf (moveView "TEST [RAX], RBX" 0x5000)) none ()).1.toOption.map Reason.kind = some .write) ∧
    (AccessFault (procOf (moveView "MOVS BYTE [RDI], [RSI]" 0x5000)) (moveView "MOVS BYTE [RDI], [RSI]" 0x5000) demoFault
        "MOVS BYTE [RDI], [RSI]".toList ∧
      (moveView "MOVS BYTE [RDI], [RSI]" 0x5000).reg "rsi".toList = .ok 0x5000 ∧ (moveView "MOVS BYTE [RDI], [RSI]" 0x5000).reg "rdi".toList = .ok 0x6000 ∧
      (memoryFault demoFault (procOf (moveView "MOVS BYTE [RDI], [RSI]" 0x5000)) none ()).1.toOption.map Reason.kind = some .write) :=
  ⟨⟨move_access _ _ (by decide), by decide +kernel⟩, move_access _ _ (by decide), by decide +kernel, by decide +kernel, by decide +kernel⟩

example : AccessFault (procOf (moveView "REP MOVSD " 0x5000)) (moveView "REP MOVSD " 0x5000) demoFault "REP MOVSD ".toList ∧
    ("REP MOVSD ".toList, 4) ∈ copies ∧ (moveView "REP MOVSD " 0x5000).reg "rsi".toList = .ok 0x5000 ∧
    (moveView "REP MOVSD " 0x5000).reg "rdi".toList = .ok 0x6000 ∧
    (memoryFault demoFault (procOf (moveView "REP MOVSD " 0x5000)) none ()).1.toOption.map (fun r => (r.kind, r.size)) = some (.read, some 4) :=
  ⟨move_access _ _ (by decide), by decide +kernel, by decide +kernel, by decide +kernel, by decide +kernel⟩

example : AccessFault (procOf (moveView "CMP BYTE [EAX], 0x0" 0x5000)) (moveView "CMP BYTE [EAX], 0x0" 0x5000) demoFault "CMP BYTE [EAX], 0x0".toList ∧
    (memoryFault demoFault (procOf (moveView "CMP BYTE [EAX], 0x0" 0x5000)) none ()).1.toOption.map (fun r => (r.kind, r.size)) = some (.read, some 1) ∧
    AccessFault (procOf (moveView "MOV EAX, [RBX]" 0x5000)) (moveView "MOV EAX, [RBX]" 0x5000) demoFault "MOV EAX, [RBX]".toList ∧
    (memoryFault demoFault (procOf (moveView "MOV EAX, [RBX]" 0x5000)) none ()).1.toOption.map (fun r => (r.kind, r.size)) = some (.read, none) :=
  ⟨move_access _ _ (by decide), by decide +kernel, move_access _ _ (by decide), by decide +kernel⟩

/-- `SCAS` reads at `rdi`, but the address is compared with `rsi`: a fault there has no direction. -/
theorem C75_scas_refuted : AccessFault (procOf (moveView "REPNZ SCASB " 0x6000)) (moveView "REPNZ SCASB " 0x6000) demoFault "REPNZ SCASB ".toList ∧
    (moveView "REPNZ SCASB " 0x6000).reg "rdi".toList = .ok 0x6000 ∧
    (memoryFault demoFault (procOf (moveView "REPNZ SCASB " 0x6000)) none ()).1.toOption.map Reason.kind = some .access :=
  ⟨move_access _ _ (by decide), by decide +kernel, by decide +kernel⟩

/-- The size name of 8 bytes is unknown: a move of 8 bytes is reported without direction and size; 16 bytes are said to be 8. -/
theorem C75_size_refuted :
    (memoryFault demoFault (procOf (moveView "MOV QWORD [RAX], 0x1" 0x5000)) none ()).1.toOption.map (fun r => (r.kind, r.size)) = some (.access, none) ∧
    (memoryFault demoFault (procOf (moveView "MOVAPS DQWORD [RAX], XMM0" 0x5000)) none ()).1.toOption.map (fun r => (r.kind, r.size)) =
      some (.write, some 8) := by decide +kernel

/-! ## C76 — mappings -/

private theorem mem_note (maps : List Mapping) (n : Nat) (a : Int) (m : Mapping) : ⟨a, some m⟩ ∈ noteAddress maps n a ↔
    m ∈ maps ∧ (((m.start : Int) ≤ a ∧ a < m.stop) ∨ ((m.start : Int) ≤ a + n - 1 ∧ a + n - 1 < m.stop)) := by
  unfold noteAddress
  simp only []
  split
  · rename_i he
    constructor
    · intro h; simp at h
    · rintro ⟨h1, h2⟩
      have : m ∈ maps.filter fun m => decide ((m.start : Int) ≤ a ∧ a < m.stop) || decide ((m.start : Int) ≤ a + n - 1 ∧ a + n - 1 < m.stop) := by
        rw [List.mem_filter]
        exact ⟨h1, by simpa using h2⟩
      rw [he] at this
      cases this
  · constructor
    · intro h
      obtain ⟨x, hx, e⟩ := List.mem_map.1 h
      injection e with _ e
      injection e with e
      subst e
      rw [List.mem_filter] at hx
      exact ⟨hx.1, by simpa using hx.2⟩
    · rintro ⟨h1, h2⟩
      refine List.mem_map.2 ⟨m, ?_, rfl⟩
      rw [List.mem_filter]
      exact ⟨h1, by simpa using h2⟩

/-- For an access of a known size that is at most the size of each mapping, the mappings shown are those with a byte of the access. -/
theorem C76_partial {σ : Type} (P : FaultProc σ) (maps : List Mapping) (s s' : σ) (hm : P.readMappings s = (.ok maps, s')) (a : Int) (n : Nat)
    (hn : 0 < n) (hbig : ∀ m ∈ maps, m.start + n ≤ m.stop) :
    ∃ notes, findMappings P (.one a) (some n) s = (.ok notes, s') ∧ (∀ x ∈ notes, x.address = a) ∧
      ∀ m, ⟨a, some m⟩ ∈ notes ↔ m ∈ maps ∧ ∃ x, a ≤ x ∧ x < a + n ∧ InMapping m x := by
  refine ⟨if maps = [] then [] else [a].flatMap (noteAddress maps n), ?_, ?_, ?_⟩
  · unfold findMappings
    simp only []
    rw [Py.run_bind_ok hm]
    rfl
  · intro x hx
    split at hx
    · cases hx
    · simp only [List.flatMap_cons, List.flatMap_nil, List.append_nil, noteAddress] at hx
      split at hx
      · rw [List.mem_singleton] at hx; rw [hx]
      · obtain ⟨m, _, rfl⟩ := List.mem_map.1 hx; rfl
  · intro m
    by_cases he : maps = []
    · subst he; simp
    · rw [if_neg he]
      simp only [List.flatMap_cons, List.flatMap_nil, List.append_nil]
      rw [mem_note]
      constructor
      · rintro ⟨h1, h2⟩
        refine ⟨h1, ?_⟩
        rcases h2 with h2 | h2
        · exact ⟨a, by omega, by omega, h2⟩
        · exact ⟨a + n - 1, by omega, by omega, h2⟩
      · rintro ⟨h1, x, h2, h3, h4, h5⟩
        refine ⟨h1, ?_⟩
        have := hbig m h1
        by_cases hc : (m.start : Int) ≤ a ∧ a < m.stop
        · exact Or.inl hc
        · right
          omega

-- four bytes across the end of a mapping
example := C76_partial (procOf demoView) demoView.maps () () rfl 0x1ffe 4 (by decide) (by decide)

/-- The address is said not to be mapped only if no mapping has a byte of the access. -/
theorem C76_unmapped {σ : Type} (P : FaultProc σ) (maps : List Mapping) (s s' : σ) (hm : P.readMappings s = (.ok maps, s')) (a : Int) (n : Nat)
    (notes : List MapNote) (h : findMappings P (.one a) (some n) s = (.ok notes, s')) (hu : ⟨a, none⟩ ∈ notes) :
    ∀ m ∈ maps, ¬ InMapping m a ∧ ¬ InMapping m (a + n - 1) := by
  unfold findMappings at h
  simp only [] at h
  rw [Py.run_bind_ok hm] at h
  injection h with h _
  injection h with h
  subst h
  intro m hmm
  by_cases he : maps = []
  · rw [he] at hmm; cases hmm
  · rw [if_neg he] at hu
    simp only [List.flatMap_cons, List.flatMap_nil, List.append_nil, Option.getD_some] at hu
    have : ¬ (⟨a, some m⟩ ∈ noteAddress maps n a) := by
      unfold noteAddress at hu ⊢
      simp only [] at hu ⊢
      split
      · simp
      · rename_i hx
        rw [if_neg hx] at hu
        obtain ⟨y, _, e⟩ := List.mem_map.1 hu
        injection e with _ e
        cases e
    rw [mem_note] at this
    exact ⟨fun hi => this ⟨hmm, Or.inl hi⟩, fun hi => this ⟨hmm, Or.inr hi⟩⟩

example := C76_unmapped (procOf demoView) demoView.maps () () rfl 0x5000 4 [⟨0x5000, none⟩] (by decide +kernel) (by decide)

/-- Without a size, the byte after the end of a mapping is said to be part of it. -/
theorem C76_refuted : ∃ w r, Answers (procOf w) w ∧ memoryFault demoFault (procOf w) none () = (.ok r, ()) ∧ r.address = .one codeMap.stop ∧
    (⟨codeMap.stop, some codeMap⟩ : MapNote) ∈ r.mappings ∧ ¬ InMapping codeMap codeMap.stop :=
  ⟨moveView "MOV EAX, [RAX]" 0x2000, _, (move_access _ _ (by decide)).1, rfl, by decide +kernel, by decide +kernel, fun h => absurd h.2 (by decide)⟩

example : ∃ notes, findMappings (procOf demoView) (.one 0x1ffe) (some 4) () = (.ok notes, ()) ∧ ⟨0x1ffe, some codeMap⟩ ∈ notes :=
  ⟨_, rfl, by decide +kernel⟩

/-! ## C77 — registers -/

private theorem runs_eq : ∀ s : Str, wordRuns s = s.takeWhile isWordChar :: (match s.dropWhile isWordChar with
    | [] => []
    | _ :: r => wordRuns r) := by
  intro s
  induction s with
  | nil => rfl
  | cons c s ih =>
    rw [wordRuns]
    by_cases hc : isWordChar c = true
    · rw [if_pos hc, ih, List.takeWhile_cons, List.dropWhile_cons, if_pos hc, if_pos hc]
    · rw [if_neg hc, List.takeWhile_cons, List.dropWhile_cons, if_neg hc, if_neg hc]

private theorem in_takeWhile {p : Char → Bool} : ∀ {s : Str} {c : Char}, c ∈ s.takeWhile p → p c = true := by
  intro s
  induction s with
  | nil => intro c h; cases h
  | cons x s ih =>
    intro c h
    rw [List.takeWhile_cons] at h
    by_cases hx : p x = true
    · rw [if_pos hx] at h
      rcases List.mem_cons.1 h with rfl | h
      · exact hx
      · exact ih h
    · rw [if_neg hx] at h; cases h

private theorem last_cons (a : Str) (c z : Char) (zs : Str) : (a ++ c :: z :: zs).getLast? = (z :: zs).getLast? := by
  rw [List.getLast?_append, List.getLast?_cons_cons]
  rw [List.getLast?_eq_some_getLast (by simp)]
  rfl

private theorem isWord_iff (c : Char) : isWordChar c = true ↔ InWord c := by
  unfold isWordChar InWord
  rw [Bool.or_eq_true, beq_iff_eq]

private theorem takeWhile_word : ∀ (w post : Str), (∀ c ∈ w, isWordChar c = true) → (∀ c, post.head? = some c → isWordChar c = false) →
    (w ++ post).takeWhile isWordChar = w ∧ (w ++ post).dropWhile isWordChar = post := by
  intro w post h1 h2
  cases post with
  | nil =>
    rw [List.append_nil]
    induction w with
    | nil => exact ⟨rfl, rfl⟩
    | cons x w ih =>
      have hx := h1 x List.mem_cons_self
      obtain ⟨e1, e2⟩ := ih (fun c hc => h1 c (List.mem_cons_of_mem _ hc))
      rw [List.takeWhile_cons, List.dropWhile_cons, hx]
      exact ⟨by rw [if_pos rfl, e1], by rw [if_pos rfl, e2]⟩
  | cons c post => exact take_until w c post h1 (h2 c rfl)

private theorem runs_sound : ∀ (n : Nat) (s w : Str), s.length ≤ n → w ∈ wordRuns s → w ≠ [] → WholeWord w s := by
  intro n
  induction n with
  | zero =>
    intro s w hn hw hne
    cases s with
    | nil => simp only [wordRuns, List.mem_singleton] at hw; exact absurd hw hne
    | cons c s => simp at hn
  | succ n ih =>
    intro s w hn hw hne
    rw [runs_eq] at hw
    rcases List.mem_cons.1 hw with rfl | hw
    · refine ⟨hne, fun c hc => (isWord_iff c).1 (in_takeWhile hc), [], s.dropWhile isWordChar, by simp, (fun c hc => by cases hc), ?_⟩
      intro c hc
      rw [← isWord_iff]
      have := List.head?_dropWhile_not isWordChar s
      rw [hc] at this
      simpa using this
    · cases hd : s.dropWhile isWordChar with
      | nil => rw [hd] at hw; cases hw
      | cons c r =>
        rw [hd] at hw
        have hs : s = s.takeWhile isWordChar ++ c :: r := by rw [← hd, List.takeWhile_append_dropWhile]
        have hlen : r.length ≤ n := by
          have := congrArg List.length hs
          simp only [List.length_append, List.length_cons] at this
          omega
        obtain ⟨h1, h2, pre, post, h3, h4, h5⟩ := ih r w hlen hw hne
        refine ⟨h1, h2, s.takeWhile isWordChar ++ c :: pre, post, ?_, ?_, h5⟩
        · rw [h3] at hs
          conv => lhs; rw [hs]
          simp
        · intro x hx
          cases pre with
          | nil =>
            simp at hx
            rw [← hx, ← isWord_iff]
            have := List.head?_dropWhile_not isWordChar s
            rw [hd] at this
            simpa using this
          | cons y ys =>
            apply h4
            rw [← hx]
            exact (last_cons _ _ _ _).symm

private theorem runs_complete : ∀ (n : Nat) (s w : Str), s.length ≤ n → WholeWord w s → w ∈ wordRuns s := by
  intro n
  induction n with
  | zero =>
    rintro s w hn ⟨h1, _, pre, post, rfl, _⟩
    simp only [List.length_append] at hn
    cases w with
    | nil => exact absurd rfl h1
    | cons c w => simp only [List.length_cons] at hn; omega
  | succ n ih =>
    rintro s w hn ⟨h1, h2, pre, post, hs, h4, h5⟩
    have hpost : ∀ c, post.head? = some c → isWordChar c = false := by
      intro c hc
      rw [Bool.eq_false_iff]
      intro e
      exact h5 c hc ((isWord_iff c).1 e)
    have hw : ∀ c ∈ w, isWordChar c = true := fun c hc => (isWord_iff c).2 (h2 c hc)
    rw [runs_eq]
    cases hpre : pre with
    | nil =>
      rw [hpre, List.nil_append] at hs
      rw [hs, (takeWhile_word w post hw hpost).1]
      exact List.mem_cons_self
    | cons x xs =>
      apply List.mem_cons_of_mem
      have hex : ∃ c p, pre.dropWhile isWordChar = c :: p := by
        cases hd : pre.dropWhile isWordChar with
        | cons c p => exact ⟨c, p, rfl⟩
        | nil =>
          exfalso
          have hl : ∃ c, pre.getLast? = some c := ⟨pre.getLast (by rw [hpre]; simp), List.getLast?_eq_some_getLast _⟩
          obtain ⟨c, hc⟩ := hl
          have hm : c ∈ pre := List.mem_of_getLast? hc
          have : isWordChar c = true := by
            have e := List.takeWhile_append_dropWhile (p := isWordChar) (l := pre)
            rw [hd, List.append_nil] at e
            rw [← e] at hm
            exact in_takeWhile hm
          exact h4 c hc ((isWord_iff c).1 this)
      obtain ⟨c, p, hd⟩ := hex
      have hsplit : pre = pre.takeWhile isWordChar ++ c :: p := by rw [← hd, List.takeWhile_append_dropWhile]
      have hc : isWordChar c = false := by
        have := List.head?_dropWhile_not isWordChar pre
        rw [hd] at this
        simpa using this
      have hs2 : s = pre.takeWhile isWordChar ++ c :: (p ++ w ++ post) := by
        rw [hs]
        conv => lhs; rw [hsplit]
        simp
      have hdw : s.dropWhile isWordChar = c :: (p ++ w ++ post) := by
        rw [hs2]
        exact (take_until _ c _ (fun y hy => in_takeWhile hy) hc).2
      rw [hdw]
      apply ih
      · have := congrArg List.length hs2
        simp only [List.length_append, List.length_cons] at this ⊢
        omega
      · refine ⟨h1, h2, p, post, rfl, ?_, h5⟩
        intro y hy
        apply h4
        rw [hsplit]
        cases p with
        | nil => cases hy
        | cons z zs =>
          rw [← hy]
          exact last_cons _ _ _ _

private theorem mem_setKey (d : List (Str × Nat)) (k : Str) (x : Nat) : (k, x) ∈ setKey d k x := by
  induction d with
  | nil => exact List.mem_cons_self
  | cons p d ih =>
    obtain ⟨k', v'⟩ := p
    unfold setKey
    by_cases e : k' = k
    · rw [if_pos e]; exact List.mem_cons_self
    · rw [if_neg e]; exact List.mem_cons_of_mem _ ih

private theorem setKey_keeps (d : List (Str × Nat)) (k : Str) (x : Nat) (k' : Str) (x' : Nat) (h : (k', x') ∈ d) (hk : k' = k → x' = x) :
    (k', x') ∈ setKey d k x := by
  induction d with
  | nil => cases h
  | cons p d ih =>
    obtain ⟨a, b⟩ := p
    unfold setKey
    by_cases e : a = k
    · rw [if_pos e]
      rcases List.mem_cons.1 h with h | h
      · injection h with h1 h2
        subst h1 h2
        rw [← hk e, ← e]
        exact List.mem_cons_self
      · exact List.mem_cons_of_mem _ h
    · rw [if_neg e]
      rcases List.mem_cons.1 h with h | h
      · rw [h]; exact List.mem_cons_self
      · exact List.mem_cons_of_mem _ (ih h)

private theorem setKey_inv (d : List (Str × Nat)) (k : Str) (x : Nat) (q : Str × Nat) (h : q ∈ setKey d k x) : q = (k, x) ∨ q ∈ d := by
  induction d with
  | nil => exact Or.inl (List.mem_singleton.1 h)
  | cons p d ih =>
    obtain ⟨a, b⟩ := p
    unfold setKey at h
    by_cases e : a = k
    · rw [if_pos e] at h
      rcases List.mem_cons.1 h with h | h
      · exact Or.inl h
      · exact Or.inr (List.mem_cons_of_mem _ h)
    · rw [if_neg e] at h
      rcases List.mem_cons.1 h with h | h
      · exact Or.inr (by rw [h]; exact List.mem_cons_self)
      · rcases ih h with h | h
        · exact Or.inl h
        · exact Or.inr (List.mem_cons_of_mem _ h)

private theorem regsOf_spec (w : FaultView) : ∀ (names : List Str) (acc : List (Str × Nat)), (∀ q ∈ acc, w.reg q.1 = .ok q.2) →
    (∀ q ∈ regsOf w names acc, w.reg q.1 = .ok q.2 ∧ (q ∈ acc ∨ ∃ n ∈ names, q.1 = n.map Char.toLower)) ∧
    (∀ q ∈ acc, q ∈ regsOf w names acc) ∧
    (∀ n ∈ names, ∀ x, w.reg (n.map Char.toLower) = .ok x → (n.map Char.toLower, x) ∈ regsOf w names acc) := by
  intro names
  induction names with
  | nil => intro acc ha; exact ⟨fun q hq => ⟨ha q hq, Or.inl hq⟩, fun q hq => hq, (fun n hn => by cases hn)⟩
  | cons n ns ih =>
    intro acc ha
    unfold regsOf
    cases hr : w.reg (n.map Char.toLower) with
    | error e =>
      obtain ⟨i1, i2, i3⟩ := ih acc ha
      refine ⟨?_, i2, ?_⟩
      · intro q hq
        obtain ⟨j1, j2⟩ := i1 q hq
        refine ⟨j1, ?_⟩
        rcases j2 with j | ⟨m, hm, e⟩
        · exact Or.inl j
        · exact Or.inr ⟨m, List.mem_cons_of_mem _ hm, e⟩
      · intro m hm x hx
        rcases List.mem_cons.1 hm with rfl | hm
        · rw [hr] at hx; cases hx
        · exact i3 m hm x hx
    | ok y =>
      simp only []
      have ha' : ∀ q ∈ setKey acc (n.map Char.toLower) y, w.reg q.1 = .ok q.2 := by
        intro q hq
        rcases setKey_inv _ _ _ _ hq with rfl | hq
        · exact hr
        · exact ha q hq
      obtain ⟨i1, i2, i3⟩ := ih _ ha'
      refine ⟨?_, ?_, ?_⟩
      · intro q hq
        obtain ⟨j1, j2⟩ := i1 q hq
        refine ⟨j1, ?_⟩
        rcases j2 with j | ⟨m, hm, e⟩
        · rcases setKey_inv _ _ _ _ j with rfl | j
          · exact Or.inr ⟨n, List.mem_cons_self, rfl⟩
          · exact Or.inl j
        · exact Or.inr ⟨m, List.mem_cons_of_mem _ hm, e⟩
      · rintro ⟨k, x⟩ hq
        apply i2
        apply setKey_keeps _ _ _ _ _ hq
        rintro rfl
        have := ha _ hq
        simp only [hr] at this
        injection this with this
        exact this.symm
      · intro m hm x hx
        rcases List.mem_cons.1 hm with rfl | hm
        · rw [hr] at hx
          injection hx with hx
          subst hx
          exact i2 _ (mem_setKey _ _ _)
        · exact i3 m hm x hx

private theorem operands_eq : ∀ (op u : Str), ' ' ∉ op → ((op ++ ' ' :: u).map Char.toUpper).dropWhile (· ≠ ' ') = ' ' :: u.map Char.toUpper := by
  intro op u h
  rw [List.map_append, List.map_cons]
  refine (take_until (p := fun x => decide (x ≠ ' ')) (op.map Char.toUpper) ' ' (u.map Char.toUpper) ?_ (by simp)).2
  intro x hx
  obtain ⟨c, hc, rfl⟩ := List.mem_map.1 hx
  rw [decide_eq_true_eq]
  intro e
  rw [(toUpper_space c).1 e] at hc
  exact h hc

private theorem plain_names : (plainRegisters.all fun n => isRegisterName .x86_64 n) = true := by decide +kernel

/-- The registers shown are words of the operands, with their values; every plain register named in the operands is shown. -/
theorem C77_partial {σ : Type} (P : FaultProc σ) (w : FaultView) (h : Answers P w) (v : FaultEnv) (hv : v.cpu = .x86_64) (op operands : Str)
    (hop : ' ' ∉ op) (s : σ) :
    ∃ regs, extractRegisters v P (some (op ++ ' ' :: operands)) s = (.ok regs, s) ∧
      (∀ q ∈ regs, w.reg q.1 = .ok q.2 ∧ ∃ n, WholeWord n (operands.map Char.toUpper) ∧ q.1 = n.map Char.toLower) ∧
      (∀ n ∈ plainRegisters, WholeWord n (operands.map Char.toUpper) → ∀ x, w.reg (n.map Char.toLower) = .ok x → (n.map Char.toLower, x) ∈ regs) := by
  have he := extractRegisters_eq (v := v) h (some (op ++ ' ' :: operands)) (by rintro _ ⟨⟩; simp) s
  refine ⟨_, he, ?_⟩
  unfold found
  rw [hv]
  simp only []
  rw [operands_eq op operands hop, List.tail_cons]
  obtain ⟨i1, _, i3⟩ := regsOf_spec w (findRegisters .x86_64 (operands.map Char.toUpper)) [] (fun q hq => by cases hq)
  refine ⟨?_, ?_⟩
  · intro q hq
    obtain ⟨j1, j2⟩ := i1 q hq
    refine ⟨j1, ?_⟩
    rcases j2 with j | ⟨n, hn, e⟩
    · cases j
    · unfold findRegisters at hn
      rw [List.mem_filter] at hn
      refine ⟨n, runs_sound _ _ _ (Nat.le_refl _) hn.1 ?_, e⟩
      rintro rfl
      exact absurd hn.2 (by simp [isRegisterName])
  · intro n hn hw x hx
    refine i3 n ?_ x hx
    unfold findRegisters
    rw [List.mem_filter]
    exact ⟨runs_complete _ _ _ (Nat.le_refl _) hw, (List.all_eq_true.1 plain_names) n hn⟩

example : ∃ regs, extractRegisters demoFault (procOf demoView) (some "MOV DWORD [RAX+0x8], 0x1".toList) () = (.ok regs, ()) ∧
    regs = [("rax".toList, 0x4ff8)] := ⟨_, rfl, by decide +kernel⟩

/-- The numbered registers are not shown, although the process knows them. -/
theorem C77_refuted : ∃ w : FaultView, Answers (procOf w) w ∧ w.reg "r12".toList = .ok 0x5000 ∧ WholeWord "R12".toList "EAX, [R12]".toList ∧
    extractRegisters demoFault (procOf w) (some "MOV EAX, [R12]".toList) () = (.ok [], ()) := by
  refine ⟨{ demoView with reg := fun n => if n = "r12".toList then .ok 0x5000 else .error (.ptrace none) }, answers_of _ (fun e h => by cases h)
    (fun e h => by cases h) ?_, by decide +kernel, ⟨by decide, ?_, "EAX, [".toList, "]".toList, by decide, ?_, ?_⟩, by decide +kernel⟩
  · intro n e h
    simp only at h
    split at h
    · cases h
    · injection h with h; rw [← h]; rfl
  · intro c hc
    rw [← isWord_iff]
    exact (List.all_eq_true.1 (by decide : ("R12".toList.all isWordChar) = true)) c hc
  · intro c hc
    have : c = '[' := by
      have e : "EAX, [".toList.getLast? = some '[' := by decide
      rw [e] at hc
      injection hc with hc
      exact hc.symm
    rw [this, ← isWord_iff]
    decide
  · intro c hc
    have : c = ']' := by
      have e : "]".toList.head? = some ']' := by decide
      rw [e] at hc
      injection hc with hc
      exact hc.symm
    rw [this, ← isWord_iff]
    decide

/-! ## C78 — arithmetic errors -/

private theorem none_reason {σ : Type} {P : FaultProc σ} {w : FaultView} {v : FaultEnv} (h : Answers P w) (kind : FaultKind) (asm : Str)
    (hi : ' ' ∈ asm) (s : σ) : ∃ r, signalInfo v P kind .none none (some asm) [] s = (.ok r, s) ∧ r.kind = kind ∧ r.instr = some asm ∧
      extractRegisters v P (some asm) s = (.ok r.registers, s) := by
  have he := extractRegisters_eq (v := v) h (some asm) (by rintro _ ⟨⟩; exact hi) s
  unfold signalInfo
  rw [Py.run_bind_ok he]
  have : findMappings P .none none s = (.ok [], s) := by unfold findMappings; rfl
  rw [Py.run_bind_ok this]
  exact ⟨_, rfl, rfl, rfl, he⟩

/-- An arithmetic error in a division is reported as one by zero, with the registers of the instruction; any other is not explained. -/
theorem C78_partial {σ : Type} (P : FaultProc σ) (w : FaultView) (v : FaultEnv) (h : Answers P w) (s : σ) :
    (∀ operand, w.seen v = some ("DIV ".toList ++ operand) ∨ w.seen v = some ("IDIV ".toList ++ operand) →
      ∃ r, analyze v P 8 none s = (.ok (some r), s) ∧ r.kind = .divisionByZero ∧ r.instr = w.seen v ∧
        extractRegisters v P r.instr s = (.ok r.registers, s)) ∧
    ((∀ asm, w.seen v = some asm → ¬ "DIV ".toList <+: asm ∧ ¬ "IDIV ".toList <+: asm) → analyze v P 8 none s = (.ok none, s)) := by
  have h8 : analyze v P 8 none s = mathError v P none s := by
    unfold analyze
    rfl
  rw [h8]
  unfold mathError
  rw [Py.run_bind_ok (getInstruction_eq h s)]
  constructor
  · intro operand ho
    have key : ∀ asm, w.seen v = some asm → ' ' ∈ asm → ((eat "IDIV ".toList asm).or (eat "DIV ".toList asm)).isSome = true →
        ∃ r, (match w.seen v with
          | none => Py.pure none
          | some asm =>
            if ((eat "IDIV ".toList asm).or (eat "DIV ".toList asm)).isSome then
              Py.bind (signalInfo v P .divisionByZero .none none (some asm) []) fun r => Py.pure (some r)
            else Py.pure none) s = (.ok (some r), s) ∧ r.kind = .divisionByZero ∧ r.instr = w.seen v ∧
          extractRegisters v P r.instr s = (.ok r.registers, s) := by
      intro asm ha hsp hm
      rw [ha]
      simp only [hm, if_true]
      obtain ⟨r, h1, h2, h3, h4⟩ := none_reason (v := v) h .divisionByZero asm hsp s
      rw [Py.run_bind_ok h1]
      exact ⟨r, rfl, h2, h3, by rw [h3]; exact h4⟩
    rcases ho with ho | ho
    · refine key _ ho (List.mem_append_left _ (by decide)) ?_
      rw [eat_append]
      cases eat "IDIV ".toList ("DIV ".toList ++ operand) <;> rfl
    · refine key _ ho (List.mem_append_left _ (by decide)) ?_
      rw [eat_append]
      rfl
  · intro hn
    cases hs : w.seen v with
    | none => rfl
    | some asm =>
      obtain ⟨n1, n2⟩ := hn asm hs
      have : (eat "IDIV ".toList asm).or (eat "DIV ".toList asm) = none := by
        cases e1 : eat "IDIV ".toList asm with
        | some t => exact absurd ⟨t, (eat_some _ _ _ e1).symm⟩ n2
        | none =>
          cases e2 : eat "DIV ".toList asm with
          | some t => exact absurd ⟨t, (eat_some _ _ _ e2).symm⟩ n1
          | none => rfl
      simp only [this]
      rfl

example := (C78_partial (procOf (moveView "DIV ECX" 0)) (moveView "DIV ECX" 0) demoFault
  (answers_of _ (fun e h => by cases h) (fun e h => by cases h) demo_reg) ()).1 "ECX".toList (.inl (by decide +kernel))

/-- A quotient that does not fit raises the same signal: the divisor shown is not zero. -/
theorem C78_refuted : ∃ (w : FaultView) (r : Reason), Answers (procOf w) w ∧ w.seen demoFault = some "DIV RAX".toList ∧
    analyze demoFault (procOf w) 8 none () = (.ok (some r), ()) ∧ r.kind = .divisionByZero ∧ r.registers = [("rax".toList, 0x4ff8)] :=
  ⟨moveView "DIV RAX" 0, _, (move_access _ _ (by decide)).1, rfl, rfl, by decide +kernel, by decide +kernel⟩

/-- Other signals do not look at the process; a signal without an explanation keeps the reason found before. -/
theorem C78_others {σ : Type} (P : FaultProc σ) (v : FaultEnv) (signum : Nat) (old : Option Reason) (s : σ) (h11 : signum ≠ 11) (h7 : signum ≠ 7)
    (h8 : signum ≠ 8) (h17 : signum ≠ 17) :
    ∃ r, analyze v P signum old s = (.ok r, s) ∧ (signum = 6 → r.map Reason.kind = some .abort) ∧ (signum ≠ 6 → r = old) := by
  unfold analyze
  simp only []
  rw [if_neg (by rintro (x | x); exact h11 x; exact h7 x), if_neg h8, if_neg h17]
  by_cases h6 : signum = 6
  · rw [if_pos h6]
    exact ⟨_, rfl, fun _ => rfl, fun h => absurd h6 h⟩
  · rw [if_neg h6]
    exact ⟨_, rfl, fun h => absurd h h6, fun _ => rfl⟩

example := C78_others (procOf demoView) demoFault 6 none () (by decide) (by decide) (by decide) (by decide)

/-- SIGSEGV and SIGBUS are memory faults; the end of a child is reported with SIGCHLD, if its siginfo can be read. -/
theorem C78_dispatch {σ : Type} (P : FaultProc σ) (v : FaultEnv) (old : Option Reason) (s s' : σ) :
    (∀ r, memoryFault v P old s = (.ok r, s') → analyze v P 11 old s = (.ok (some r), s') ∧ analyze v P 7 old s = (.ok (some r), s')) ∧
    (∀ e, memoryFault v P old s = (.error e, s') → analyze v P 11 old s = (.error e, s') ∧ analyze v P 7 old s = (.error e, s')) ∧
    (∀ c, v.linux = true → P.child s = (.ok c, s') → ∃ r, analyze v P 17 old s = (.ok (some r), s') ∧ r.kind = .childExit ∧ r.note = .child c.1 c.2.1 c.2.2) := by
  have h11 : analyze v P 11 old = Py.bind (memoryFault v P old) fun r => Py.pure (some r) := rfl
  have h7 : analyze v P 7 old = Py.bind (memoryFault v P old) fun r => Py.pure (some r) := rfl
  refine ⟨fun r h => ?_, fun e h => ?_, fun c hl h => ?_⟩
  · rw [h11, h7, Py.run_bind_ok h]; exact ⟨rfl, rfl⟩
  · rw [h11, h7, Py.run_bind_error h]; exact ⟨rfl, rfl⟩
  · unfold analyze
    simp only [show ¬ ((17 : Nat) = 11 ∨ (17 : Nat) = 7) by decide, show ¬ ((17 : Nat) = 8) by decide, if_false, if_true, hl]
    rw [Py.run_bind_ok h]
    exact ⟨_, rfl, rfl, rfl⟩

end PT
