import Verif.Lemmas.Session
import Verif.Lemmas.Split
import Verif.Props.Breakpoint
import Verif.Props.Disasm
import Verif.Props.Expr

/-! Property theorems C124: a session of gdb.py that does not let the program run. -/

namespace PT
open PT.Spec PT.Props

/-! ## single commands -/

/-- Commands that show something leave memory, registers and breakpoints alone and ask for no change of memory, whatever the kernel answers and
whether they return, return an error message or raise. -/
theorem C124_look (V : ShowEnv) (other : Handler → Str → Py (Con BpSt) Bool) (command : Str) (handler : Handler) (text : Str)
    (hd : dispatch command = some (handler, text)) (hh : handler ∈ showing) (c : Con BpSt) :
    Untouched c.inner (V.execute other command c).2.inner := by
  unfold ShowEnv.execute
  rw [hd]
  exact run_showing V other handler text hh c

/-- `set` changes registers only. -/
theorem C124_set (V : ShowEnv) (other : Handler → Str → Py (Con BpSt) Bool) (command text : Str)
    (hd : dispatch command = some (.set, text)) (c : Con BpSt) : SameCode c.inner (V.execute other command c).2.inner := by
  unfold ShowEnv.execute
  rw [hd]
  exact run_set V text c

theorem readInstrSize_keeps (E : Option Disassembler) (h : BpHost) (a : Nat) : Keeps Untouched (readInstrSize E h a) := by
  unfold readInstrSize
  split
  · exact keeps_pure untouched_pre _
  · exact keeps_exceptPtrace untouched_pre (keeps_bind untouched_pre (procDisassembleOne_keeps _ _ _) fun _ => keeps_pure untouched_pre _)
      (keeps_pure untouched_pre _)

theorem createBreakpoint_regs (h : BpHost) (a : Nat) (size : Option Nat) : Keeps SameRegs (createBreakpoint h a size) := by
  intro s
  rcases createBreakpoint_cases h a size s with ⟨e, m', h1, _⟩ | ⟨m', old, h1, _⟩ <;> rw [h1] <;> rfl

theorem desinstall_sameRegs (h : BpHost) (id : Nat) : Keeps SameRegs (desinstall h id false) := by
  intro s
  unfold desinstall
  split
  · rfl
  · split
    · rfl
    · refine keeps_bind sameRegs_pre (R := SameRegs) ?_ (fun _ => keeps_bind sameRegs_pre (keeps_pure sameRegs_pre _) fun _ => ?_) _
      · intro t
        dsimp only
        split
        · rfl
        · rfl
      · intro t
        unfold removeBreakpoint
        split <;> rfl

theorem gdbBreak_regs (E : Option Disassembler) (h : BpHost) (a : Nat) : Keeps SameRegs (gdbBreak E h a) :=
  keeps_bind sameRegs_pre ((readInstrSize_keeps E h a).mono fun _ _ h => h.2) fun _ =>
    keeps_exceptPtrace sameRegs_pre (keeps_bind sameRegs_pre (createBreakpoint_regs h a _) fun _ => keeps_pure sameRegs_pre _) (keeps_pure sameRegs_pre _)

theorem gdbDelete_regs (h : BpHost) (a : Nat) : Keeps SameRegs (gdbDelete h a) := by
  intro s
  unfold gdbDelete
  split
  · rfl
  · exact keeps_bind sameRegs_pre (desinstall_sameRegs h _) (fun _ => keeps_pure sameRegs_pre _) s

theorem parse_regs (V : ShowEnv) (t : Str) : Keeps SameRegs (V.parse t) := (parse_keeps V t).mono fun _ _ h => h.2

/-- Commands other than `set` leave the registers alone. -/
theorem run_regs (V : ShowEnv) (other : Handler → Str → Py (Con BpSt) Bool) (handler : Handler) (text : Str)
    (hh : handler ∈ [.breakpoint, .delete] ++ showing) : Keeps (onCon SameRegs) (V.run other handler text) := by
  have hC := onCon_pre sameRegs_pre
  rcases List.mem_append.1 hh with h | h
  · simp only [List.mem_cons, List.not_mem_nil, or_false] at h
    rcases h with rfl | rfl
    · exact keeps_valueOr hC (keeps_inside sameRegs_pre (parse_regs V _)) fun _ => keeps_inside sameRegs_pre (gdbBreak_regs _ _ _)
    · exact keeps_valueOr hC (keeps_inside sameRegs_pre (parse_regs V _)) fun _ => keeps_inside sameRegs_pre (gdbDelete_regs _ _)
  · exact (run_showing V other handler text h).mono fun _ _ h => h.2

/-- `break` and `delete` leave the registers alone. -/
theorem C124_break (V : ShowEnv) (other : Handler → Str → Py (Con BpSt) Bool) (command : Str) (handler : Handler) (text : Str)
    (hd : dispatch command = some (handler, text)) (hh : handler ∈ [.breakpoint, .delete]) (c : Con BpSt) :
    (V.execute other command c).2.inner.r.regs = c.inner.r.regs := by
  unfold ShowEnv.execute
  rw [hd]
  exact run_regs V other handler text (List.mem_append_left _ hh) c

/-! ## sessions -/

theorem execute_keeps {R : BpSt → BpSt → Prop} (hR : Preorder' R) (V : ShowEnv) (other : Handler → Str → Py (Con BpSt) Bool) (hs : List Handler)
    (h : ∀ handler ∈ hs, ∀ text, Keeps (onCon R) (V.run other handler text)) (command : Str)
    (ho : ∀ handler text, dispatch command = some (handler, text) → handler ∈ hs) : Keeps (onCon R) (V.execute other command) := by
  unfold ShowEnv.execute
  split
  · exact h _ (ho _ _ ‹_›) _
  · exact keeps_pure (onCon_pre hR) _

/-- What single commands keep, a session keeps. -/
theorem session_keeps {R : BpSt → BpSt → Prop} (hR : Preorder' R) (V : ShowEnv) (other : Handler → Str → Py (Con BpSt) Bool) (hs : List Handler)
    (h : ∀ handler ∈ hs, ∀ text, Keeps (onCon R) (V.run other handler text)) (lines : List Str) (ho : OnlyCommands V.ps.space hs lines) :
    ∀ c, R c.inner (V.session other lines c).inner := by
  induction lines with
  | nil => intro c; exact hR.refl _
  | cons line lines ih =>
    intro c
    have h1 : onCon R c (runLine (V.execute other) V.ps.space (splitOn ';' line) c).2 := by
      refine keeps_runLine (onCon_pre hR) _ _ (fun x hx => execute_keeps hR V other hs h _ ?_) c
      exact ho line (by simp) _ ⟨_, splitOn_pieces _ _, x, hx, strip_stripped _ _⟩
    exact hR.trans h1 (ih (fun l hl => ho l (by simp [hl])) _)

/-- A session of commands that show something leaves the program alone. -/
theorem C124_session_look (V : ShowEnv) (other : Handler → Str → Py (Con BpSt) Bool) (lines : List Str) (ho : OnlyCommands V.ps.space showing lines)
    (c : Con BpSt) : Untouched c.inner (V.session other lines c).inner :=
  session_keeps untouched_pre V other showing (fun _ hh _ => run_showing V other _ _ hh) lines ho c

/-- A session without `set` leaves the registers alone. -/
theorem C124_session_registers (V : ShowEnv) (other : Handler → Str → Py (Con BpSt) Bool) (lines : List Str)
    (ho : OnlyCommands V.ps.space ([.breakpoint, .delete] ++ showing) lines) (c : Con BpSt) :
    (V.session other lines c).inner.r.regs = c.inner.r.regs :=
  session_keeps sameRegs_pre V other _ (fun _ hh _ => run_regs V other _ _ hh) lines ho c

/-- A session without `break` and `delete` leaves memory and breakpoints alone. -/
theorem C124_session_code (V : ShowEnv) (other : Handler → Str → Py (Con BpSt) Bool) (lines : List Str)
    (ho : OnlyCommands V.ps.space (.set :: showing) lines) (c : Con BpSt) : SameCode c.inner (V.session other lines c).inner := by
  refine session_keeps sameCode_pre V other _ (fun handler hh text => ?_) lines ho c
  rcases List.mem_cons.1 hh with rfl | h
  · exact run_set V text
  · exact (run_showing V other _ _ h).mono fun _ _ h => h.1

/-! ## breakpoints of a session -/

/-- The breakpoints put down so far, each of one byte, are what changed the memory. -/
structure SessionInv (h : BpHost) (orig : Nat → Byte) (s : BpSt) : Prop where
  inv : BpInv h orig s
  one : ∀ b ∈ s.objs, b.size = 1

/-- The invariant carries over. -/
def Carries (h : BpHost) (orig : Nat → Byte) (s t : BpSt) : Prop := SessionInv h orig s → SessionInv h orig t

theorem carries_pre (h : BpHost) (orig : Nat → Byte) : Preorder' (Carries h orig) := ⟨fun _ => id, fun h1 h2 => h2 ∘ h1⟩

theorem carries_of_same {h : BpHost} {orig : Nat → Byte} {s t : BpSt} (hs : SameCode s t) : Carries h orig s t := by
  rintro ⟨⟨h1, h2, h3, h4, h5, h6⟩, h7⟩
  have hp : places t = places s := by unfold places; rw [hs.listed, hs.objects]
  refine ⟨⟨by rw [hs.running]; exact h1, ?_, ?_, ?_, ?_, ?_⟩, ?_⟩
  · rw [hs.listed, hs.objects]; exact h2
  · rw [hs.listed]; exact h3
  · rw [hs.listed, hs.objects]; exact h4
  · rw [hs.listed, hs.objects]; exact h5
  · rw [hp, hs.memory.1]; exact h6
  · rw [hs.objects]; exact h7

theorem create_carries {h : BpHost} (hpp : h.powerpc = false) (orig : Nat → Byte) (a : Nat) : Keeps (Carries h orig) (createBreakpoint h a none) := by
  intro s hs
  have h1 : bpSize h none = 1 := by unfold bpSize; rw [hpp]; rfl
  refine ⟨?_, ?_⟩
  · cases hc : createBreakpoint h a none s with
    | mk res s' =>
      cases res with
      | error e => exact inv_create_fail hs.inv hc h1
      | ok id =>
        refine inv_create hs.inv hc (by omega) ?_ (C19_one_byte h a none s s' id h1 hc)
        intro p hp
        obtain ⟨e, he, b, hb, rfl⟩ := mem_places.1 hp
        have := findBreakpoint_none (C19_install h a none s s' id hc).2.2.2 e he b hb
        dsimp only
        omega
  · rcases createBreakpoint_cases h a none s with ⟨e, m', hc, _⟩ | ⟨m', old, hc, _⟩ <;> rw [hc]
    · exact hs.one
    · intro b hb
      rcases List.mem_append.1 hb with hb | hb
      · exact hs.one b hb
      · rw [List.mem_singleton.1 hb]; exact h1

theorem desinstall_objs (h : BpHost) (id : Nat) (s : BpSt) : ∀ b ∈ (desinstall h id false s).2.objs, ∃ c ∈ s.objs, c.size = b.size := by
  unfold desinstall
  split
  · intro b hb; exact ⟨b, hb, rfl⟩
  · next o ho =>
    split
    · intro b hb; exact ⟨b, hb, rfl⟩
    · have hR : Preorder' (fun s t : BpSt => t.objs = s.objs) := ⟨fun _ => rfl, fun h1 h2 => h2.trans h1⟩
      have key := keeps_bind hR (m := fun s : BpSt => if s.running then onMem (writeBytes h.kernel o.address o.oldBytes) s else (.ok (), s))
        (f := fun _ => Py.bind (if false then onRegs (setInstrPointer h.table h.regKernel o.address) else Py.pure ()) fun _ => removeBreakpoint o.address)
        (by intro t; dsimp only; split <;> rfl)
        (fun _ => keeps_bind hR (keeps_pure hR _) fun _ => by intro t; unfold removeBreakpoint; split <;> rfl)
        { s with objs := s.objs.set id { o with installed := false } }
      intro b hb
      dsimp only at key
      rw [key] at hb
      rcases List.mem_or_eq_of_mem_set hb with hb | rfl
      · exact ⟨b, hb, rfl⟩
      · exact ⟨o, List.mem_of_getElem? ho, rfl⟩

theorem desinstall_carries (h : BpHost) (orig : Nat → Byte) (id : Nat) : Keeps (Carries h orig) (desinstall h id false) := by
  intro s hs
  refine ⟨?_, ?_⟩
  · cases hc : desinstall h id false s with
    | mk res s' =>
      cases res with
      | error e => exact inv_desinstall_fail hs.inv hc fun b hb => hs.one b (List.mem_of_getElem? hb)
      | ok u => exact inv_desinstall hs.inv hc
  · intro b hb
    obtain ⟨c, hc, e⟩ := desinstall_objs h id s b hb
    rw [← e]; exact hs.one c hc

/-- Every command of a session without disassembler keeps the breakpoints and the memory in step. -/
theorem run_carries (V : ShowEnv) (hE : V.disassembler = none) (hpp : V.host.powerpc = false) (orig : Nat → Byte)
    (other : Handler → Str → Py (Con BpSt) Bool) (handler : Handler) (text : Str) (hh : handler ∈ standing) :
    Keeps (onCon (Carries V.host orig)) (V.run other handler text) := by
  have hR := carries_pre V.host orig
  have hC := onCon_pre hR
  have hp : ∀ t, Keeps (Carries V.host orig) (V.parse t) := fun t => (parse_keeps V t).mono fun _ _ h => carries_of_same h.1
  rcases List.mem_append.1 hh with h | h
  · simp only [List.mem_cons, List.not_mem_nil, or_false] at h
    rcases h with rfl | rfl | rfl
    · exact (run_set V text).mono fun _ _ h => carries_of_same h
    · refine keeps_valueOr hC (keeps_inside hR (hp _)) fun a => keeps_inside hR ?_
      rw [hE]
      exact keeps_exceptPtrace hR (keeps_bind hR (create_carries hpp orig a) fun _ => keeps_pure hR _) (keeps_pure hR _)
    · refine keeps_valueOr hC (keeps_inside hR (hp _)) fun a => keeps_inside hR ?_
      intro s
      unfold gdbDelete
      split
      · exact id
      · exact keeps_bind hR (desinstall_carries V.host orig _) (fun _ => keeps_pure hR _) s
  · exact (run_showing V other handler text h).mono fun _ _ h => carries_of_same h.1

/-- Without a disassembler, after any session of commands that do not let the program run: the memory is the first one with a trap byte exactly at the
addresses that are listed as breakpoints. It is the first memory when none is listed.
Missing: with a disassembler (`C124_overlap_refuted`); PowerPC. -/
theorem C124_session_partial (V : ShowEnv) (hE : V.disassembler = none) (hpp : V.host.powerpc = false)
    (other : Handler → Str → Py (Con BpSt) Bool) (lines : List Str) (ho : OnlyCommands V.ps.space standing lines) (c : Con BpSt)
    (hd : c.inner.dict = []) (hob : c.inner.objs = []) (hr : c.inner.running = true) (x : Nat) :
    let t := (V.session other lines c).inner
    t.m.mem x = if x ∈ t.dict.map Prod.fst then 0xCC else c.inner.m.mem x := by
  intro t
  have h0 : SessionInv V.host c.inner.m.mem c.inner := ⟨bpRun_inv V.host c.inner c.inner hd hob hr .start, by rw [hob]; simp⟩
  have ht : SessionInv V.host c.inner.m.mem t :=
    session_keeps (carries_pre V.host c.inner.m.mem) V other standing (fun _ hh _ => run_carries V hE hpp _ other _ _ hh) lines ho c h0
  split
  · next hx =>
    obtain ⟨e, he, rfl⟩ := List.mem_map.1 hx
    obtain ⟨b, hb, ha, hs, _⟩ := ht.inv.ents e he
    have := ht.inv.mem.1 _ (mem_places.2 ⟨e, he, b, hb, rfl⟩) 0 hs
    dsimp only at this
    rw [ha] at this
    rw [Nat.add_zero] at this
    rw [this]
    unfold trapByte
    rw [hpp]
    rfl
  · next hx =>
    refine ht.inv.mem.2 x fun p hp => ?_
    obtain ⟨e, he, b, hb, rfl⟩ := mem_places.1 hp
    obtain ⟨b', hb', ha, _⟩ := ht.inv.ents e he
    rw [hb] at hb'; injection hb' with hb'; subst hb'
    have h1 := ht.one b (List.mem_of_getElem? hb)
    have h2 : x ≠ e.1 := fun h => hx (h ▸ List.mem_map_of_mem he)
    dsimp only
    omega

/-! ## examples -/

/-- Decimal numbers. -/
def numEval (t : Str) : Except EvalErr PyVal :=
  match decNumber t with
  | some n => .ok (.int n)
  | none => .error .syntaxError

/-- The disassembler of the example: at 2 an instruction of four bytes, one byte elsewhere. -/
def overlapE : Disassembler := ⟨fun a _ => if a = 2 then some (4, []) else some (1, []), 4, false⟩

/-- gdb.py on a 64-bit Intel processor, without files of the process. -/
def exShow (E : Option Disassembler) : ShowEnv where
  host := exHost
  disassembler := E
  ps := asciiStr
  eval := numEval
  maps := fun _ => .error (.os 2)
  files := ⟨.missing, .missing, .missing, none, .missing⟩
  repr := id
  terminal := 80
  pid := 7
  errText := fun _ => []
  infoExc := fun _ => .os 2
  codeText := fun _ => []
  signames := []

/-- The other commands of the example do nothing. -/
def noOther (_ : Handler) (_ : Str) : Py (Con BpSt) Bool := Py.pure true

/-- A session, line by line. -/
theorem only_of {hs : List Handler} {lines : List Str} (key : ∀ line ∈ lines, ∀ item ∈ splitOn ';' line,
    (dispatch (strip asciiStr.space item)).all (fun p => decide (p.1 ∈ hs)) = true) : OnlyCommands asciiStr.space hs lines := by
  intro line hl command ⟨items, hp, item, hi, hs⟩
  rw [pieces_iff] at hp
  rw [stripped_iff] at hs
  subst hp hs
  intro handler text h
  have := key line hl item hi
  rw [h] at this
  simpa using this

-- the theorems at work
example : OnlyCommands asciiStr.space standing ["break 4; print 1".toList, "delete 4".toList] := only_of (by decide +kernel)
example := C124_look (exShow none) noOther "print 1".toList .print "1".toList (by decide) (by decide) ⟨exBp, []⟩
example := C124_set (exShow none) noOther "set $rax=1".toList "$rax=1".toList (by decide) ⟨exBp, []⟩
example := C124_break (exShow none) noOther "break 4".toList .breakpoint "4".toList (by decide) (by decide) ⟨exBp, []⟩
example := C124_session_look (exShow none) noOther ["regs; print 1".toList, "where".toList] (only_of (by decide +kernel)) ⟨exBp, []⟩
example := C124_session_registers (exShow none) noOther ["break 4; print 1".toList, "delete 4".toList] (only_of (by decide +kernel)) ⟨exBp, []⟩
example := C124_session_code (exShow none) noOther ["set $rax=1; print 1".toList] (only_of (by decide +kernel)) ⟨exBp, []⟩
example : (exShow none).disassembler = none ∧ (exShow none).host.powerpc = false ∧ exBp.dict = [] ∧ exBp.objs = [] ∧ exBp.running = true :=
  ⟨rfl, rfl, rfl, rfl, rfl⟩
-- the breakpoint is set by the first line
example : let t := ((exShow none).session noOther ["break 4; print 1".toList] ⟨exBp, []⟩).inner
    t.dict = [(4, 0)] ∧ t.m.mem 4 = 0xCC ∧ t.m.mem 5 = 255 := by decide +kernel
example : dispatch "print 1".toList = some (.print, "1".toList) ∧ .print ∈ showing := by decide

/-- With a disassembler the breakpoints of a session may overlap: after `break 4`, `break 2` (an instruction of four bytes), `delete 4`, `delete 2` no
breakpoint is listed, but the program has a trap byte at 4. -/
theorem C124_overlap_refuted :
    let t := ((exShow (some overlapE)).session noOther ["break 4".toList, "break 2".toList, "delete 4".toList, "delete 2".toList] ⟨exBp, []⟩).inner
    t.dict = [] ∧ t.m.mem 4 = 0xCC ∧ exBp.m.mem 4 = 255 := by decide +kernel

end PT
