import Verif.Lemmas.Disasm3
import Verif.Props.Breakpoint

namespace PT
open Props

/-! Examples use a small decoder: 90 is `nop`, b8 starts `mov` with four bytes of data, cc is `int3`, 66 starts an
instruction of twelve bytes, anything else (and anything cut) is `db`. -/

/-- The decoder of the examples. -/
def toyOne (_address : Nat) (code : Bytes) : Option (Nat × Str) :=
  match code with
  | [] => none
  | b :: rest =>
    if b = 0x90 then some (1, "NOP".toList)
    else if b = 0xcc then some (1, "INT 3".toList)
    else if b = 0xb8 ∧ 4 ≤ rest.length then some (5, "MOV".toList)
    else if b = 0x66 ∧ 11 ≤ rest.length then some (12, "LONG".toList)
    else some (1, "DB".toList)

/-- The disassembler of the examples (x86_64, distorm3). -/
def toyE : Disassembler := ⟨toyOne, 11, false⟩

/-- A program at 100: `mov`, then `nop`s. -/
def toyMem (x : Nat) : Byte := if x = 100 then 0xb8 else if x < 105 then 0 else 0x90

/-- The process of the examples. -/
def toyBp : BpSt := { m := { mem := toyMem }, r := exRegs, running := true }

/-- The listing of the program: ten instructions. -/
def toyCode : List Spec.CodeItem := (100, 5, "MOV".toList) :: (List.range 9).map fun i => (105 + i, 1, "NOP".toList)

theorem toy_nop (a : Nat) (ha : 105 ≤ a) : Spec.IsInstr toyOne toyMem a 1 "NOP".toList := by
  have hb : toyMem a = 0x90 := by unfold toyMem; rw [if_neg (by omega), if_neg (by omega)]
  refine ⟨by decide, fun rest => ?_⟩
  have : Spec.codeAt toyMem a 1 = [0x90] := by simp [Spec.codeAt, hb]
  rw [this]
  rfl

theorem toy_mov : Spec.IsInstr toyOne toyMem 100 5 "MOV".toList := by
  refine ⟨by decide, fun rest => ?_⟩
  have : Spec.codeAt toyMem 100 5 = [0xb8, 0, 0, 0, 0] := by decide
  rw [this]
  simp [toyOne]

theorem toy_code : Spec.Code toyOne toyMem 100 toyCode := by
  refine ⟨rfl, toy_mov, rfl, toy_nop _ (by decide), rfl, toy_nop _ (by decide), rfl, toy_nop _ (by decide), rfl,
    toy_nop _ (by decide), rfl, toy_nop _ (by decide), rfl, toy_nop _ (by decide), rfl, toy_nop _ (by decide), rfl,
    toy_nop _ (by decide), rfl, toy_nop _ (by decide), trivial⟩

theorem toy_complete : CompleteReplies exHost.kernel := by
  intro log a n c h
  injection h with h
  omega

/-! ## C79 — the code dump looks through breakpoints -/

/-- `where2 START [STOP]` after any history of breakpoints: the lines are those of the original program, in
order, with a mark at exactly the breakpoints and at the instruction pointer; an error only cuts the listing
short (and is reported), and nothing is changed. The breakpoints must lie on whole instructions of the
listing, the instructions must not be longer than MAX_INSTR_SIZE, and reads must be complete: see the
refutations. -/
theorem C79_partial (E : Disassembler) (hE : E.bytesHex = false) (h : BpHost) (hk : CompleteReplies h.kernel)
    (s0 p : BpSt) (hd : s0.dict = []) (ho : s0.objs = []) (hr : s0.running = true) (hrun : BpRun h s0 p)
    (a ip : Nat) (stop : Option Nat) (r' : RegSt) (hip : getInstrPointer h.table h.regKernel p.r = (.ok ip, r'))
    (l : List Spec.CodeItem) (hc : Spec.Code E.one s0.m.mem a l) (hl : 10 ≤ l.length)
    (hsz : ∀ x ∈ l, x.2.1 ≤ E.maxSize) (hon : Spec.OnInstrs (places p) l) :
    let st := stop.map fun stop => min (max a stop) (a + 1023)
    let lines := (Spec.shown st 10 l).map fun x => DumpLine.instr ⟨x.1, x.2.1, x.2.2, Spec.codeAt s0.m.mem x.1 x.2.1⟩
      (decide (x.1 = ip)) (decide (∃ q ∈ places p, q.1 = x.1))
    let r := dumpCode (some E) h (some a) stop true { p := p }
    r.2.p.m.mem = p.m.mem ∧ places r.2.p = places p ∧
    ((r.1 = .ok () ∧ r.2.out = .header :: lines) ∨
     ∃ q, q <+: lines ∧ ((r.1 = .ok () ∧ r.2.out = .header :: q ++ [.unable a]) ∨
       ∃ e, r.1 = .error e ∧ (∀ n, e ≠ .ptrace n) ∧ r.2.out = .header :: q)) := by
  intro st lines r
  have hinv := bpRun_inv h s0 p hd ho hr hrun
  have hinv' : BpInv h s0.m.mem { p with r := r' } := ⟨hinv.running, hinv.ents, hinv.keys, hinv.disj, hinv.inst, hinv.mem⟩
  have h1 : exceptPtrace (Py.bind (onProc (onRegs (getInstrPointer h.table h.regKernel))) fun ip =>
      (Py.pure (some ip) : Py DumpSt (Option Nat))) (Py.pure none) { p := p } = (.ok (some ip), { p := { p with r := r' } }) := by
    have h2 : onProc (onRegs (getInstrPointer h.table h.regKernel)) { p := p } = (.ok ip, { p := { p with r := r' } }) := by
      unfold onProc
      simp only []
      rw [onRegs_ok hip]
    unfold exceptPtrace
    rw [Py.run_bind_ok h2]
    rfl
  have hrr : r = exceptPtrace (dumpCodeAt (some E) h a stop (some ip) true) (logLine (.unable a))
      { p := { p with r := r' } } := by
    show dumpCode _ _ _ _ _ _ = _
    unfold dumpCode
    rw [Py.run_bind_ok h1]
  have hat : dumpCodeAt (some E) h a stop (some ip) true { p := { p with r := r' } } =
      dumpLoop E h st (some ip) 10 a { p := { p with r := r' }, out := [.header] } := by
    unfold dumpCodeAt
    simp only []
    rw [Py.run_bind_ok (logLine_run _ _)]
    rfl
  have hloop := dumpLoop_run hE hk st (some ip) 10 a l { p := { p with r := r' }, out := [.header] } hinv' hc hl hsz hon
  rw [hrr]
  unfold exceptPtrace
  rw [hat]
  generalize dumpLoop E h st (some ip) 10 a { p := { p with r := r' }, out := [.header] } = x at hloop ⊢
  obtain ⟨res, s'⟩ := x
  obtain ⟨hsame, hres⟩ := hloop
  dsimp only at hsame hres ⊢
  have hlines : ∀ q : List Spec.CodeItem, q.map (itemLine s0.m.mem (some ip) (places { p with r := r' })) =
      q.map fun x => DumpLine.instr ⟨x.1, x.2.1, x.2.2, Spec.codeAt s0.m.mem x.1 x.2.1⟩
        (decide (x.1 = ip)) (decide (∃ q ∈ places p, q.1 = x.1)) := by
    intro q
    apply List.map_congr_left
    intro x _
    have hp : places { p with r := r' } = places p := rfl
    simp only [itemLine, hp, Option.some.injEq]
  have hpl : ∀ s'' : BpSt, s''.dict = s'.p.dict → s''.objs = s'.p.objs → places s'' = places p := by
    intro s'' h1 h2
    unfold places
    rw [h1, h2, hsame.dict, hsame.objs]
  rcases hres with ⟨h2, h3⟩ | ⟨e, q, h2, h3, h4⟩
  · subst h2
    refine ⟨hsame.mem, hpl _ rfl rfl, Or.inl ⟨rfl, ?_⟩⟩
    dsimp only
    rw [h3, hlines]
    rfl
  · subst h2
    have hq : (q.map fun x => DumpLine.instr ⟨x.1, x.2.1, x.2.2, Spec.codeAt s0.m.mem x.1 x.2.1⟩
        (decide (x.1 = ip)) (decide (∃ q ∈ places p, q.1 = x.1))) <+: lines := h3.map _
    rw [hlines] at h4
    by_cases hp : ∃ n, e = .ptrace n
    · obtain ⟨n, rfl⟩ := hp
      refine ⟨hsame.mem, hpl _ rfl rfl, Or.inr ⟨_, hq, Or.inl ⟨rfl, ?_⟩⟩⟩
      show s'.out ++ _ = _
      rw [h4]
      rfl
    · have hk : e.isPtrace = false := by
        cases e <;> first | rfl | exact absurd ⟨_, rfl⟩ hp
      simp only [hk, Bool.false_eq_true, if_false]
      refine ⟨hsame.mem, hpl _ rfl rfl, Or.inr ⟨_, hq, Or.inr ⟨e, rfl, fun n hn => hp ⟨n, hn⟩, ?_⟩⟩⟩
      exact h4

/-- A breakpoint on the `mov` and one on the `nop` after the next. -/
def toyBroken : BpSt := (createBreakpoint exHost 107 (some 1) (createBreakpoint exHost 100 (some 5) toyBp).2).2

example : (dumpCode (some toyE) exHost (some 100) (some 106) true { p := toyBroken }).2.out =
    [.header, .instr ⟨100, 5, "MOV".toList, [0xb8, 0, 0, 0, 0]⟩ false true,
     .instr ⟨105, 1, "NOP".toList, [0x90]⟩ false false] := by decide +kernel
example : BpRun exHost toyBp toyBroken := .create1 107 (some 1) (.create (id := 0) 100 (some 5) .start (Prod.ext (by decide +kernel) rfl) (by decide)
  (by decide) (C19_complete_replies exHost 100 (some 5) toyBp _ 0 toy_complete (Prod.ext (by decide +kernel) rfl))) (by decide)
example : Spec.OnInstrs (places toyBroken) toyCode := by
  have : places toyBroken = [(100, 5), (107, 1)] := by decide +kernel
  rw [this]
  unfold Spec.OnInstrs
  decide
example : toyCode.length = 10 ∧ ∀ x ∈ toyCode, x.2.1 ≤ toyE.maxSize := by decide

/-- The statement fails for a breakpoint that is not on a whole instruction: one byte (the default size of
`createBreakpoint`) on an instruction of five. The original code begins with `mov`; the dump shows its first
byte as data and the four trailing bytes as instructions. -/
theorem C79_size_refuted :
    ¬ ∀ (E : Disassembler) (h : BpHost) (s0 p : BpSt) (a : Nat) (stop : Option Nat) (l : List Spec.CodeItem),
      E.bytesHex = false → CompleteReplies h.kernel → s0.dict = [] → s0.objs = [] → s0.running = true → BpRun h s0 p →
      Spec.Code E.one s0.m.mem a l → 10 ≤ l.length → (∀ x ∈ l, x.2.1 ≤ E.maxSize) →
      ∀ i here bp, .instr i here bp ∈ (dumpCode (some E) h (some a) stop true { p := p }).2.out →
        (i.address, i.size, i.text) ∈ l := by
  intro H
  have := H toyE exHost toyBp (createBreakpoint exHost 100 none toyBp).2 100 (some 101) toyCode rfl toy_complete rfl rfl rfl
    (.create1 100 none .start rfl) toy_code (by decide) (by decide) ⟨100, 1, "DB".toList, [0xb8]⟩ false true
    (by decide +kernel)
  exact absurd this (by decide)

/-- A program with an instruction of twelve bytes at 100, `nop`s elsewhere. -/
def longMem (x : Nat) : Byte := if x = 100 then 0x66 else if 100 < x ∧ x < 112 then 0 else 0x90

/-- The statement fails for instructions longer than MAX_INSTR_SIZE = 11 (x86 allows 15), without any
breakpoint: the first byte is shown as data. -/
theorem C79_long_refuted :
    ¬ ∀ (E : Disassembler) (h : BpHost) (p : BpSt) (a : Nat) (stop : Option Nat) (l : List Spec.CodeItem),
      E.bytesHex = false → CompleteReplies h.kernel → p.dict = [] → p.objs = [] → p.running = true →
      Spec.Code E.one p.m.mem a l → (∀ x ∈ l, x.2.1 ≤ 15) → l ≠ [] →
      ∀ i here bp, .instr i here bp ∈ ((dumpCode (some E) h (some a) stop true { p := p }).2.out.take 2) →
        (i.address, i.size, i.text) ∈ l := by
  intro H
  have hin : Spec.IsInstr toyOne longMem 100 12 "LONG".toList := by
    refine ⟨by decide, fun rest => ?_⟩
    have : Spec.codeAt longMem 100 12 = [0x66, 0, 0, 0, 0, 0, 0, 0, 0, 0, 0, 0] := by decide
    rw [this]
    simp [toyOne]
  have := H toyE exHost { toyBp with m := { mem := longMem } } 100 none [(100, 12, "LONG".toList)] rfl toy_complete rfl rfl
    rfl ⟨rfl, hin, trivial⟩ (by decide) (by decide) ⟨100, 1, "DB".toList, [0x66]⟩ false false
    (by decide +kernel)
  exact absurd this (by decide)

/-! ## C80 — disassembly -/

/-- `disassemble(start, stop, nb_instr)`: whatever the kernel answers, the instructions are consecutive from
`start`, each shows the bytes of memory at its address, there are at most as many as asked for, and nothing
is changed. -/
theorem C80_consecutive (E : Disassembler) (h : BpHost) (a : Nat) (stop nb : Option Nat) (s s' : BpSt) (l : List Instr)
    (hr : procDisassemble E h a stop nb s = (.ok l, s')) :
    Spec.Consecutive s.m.mem a l ∧ (∀ n, nb = some n → 0 < n → l.length ≤ n) ∧
    (stop = none → nb = none → l.length ≤ 10) ∧ s'.m.mem = s.m.mem ∧ s'.dict = s.dict := by
  obtain ⟨n, _, _, _, hs, hl⟩ := procDisassemble_ok hr
  have hcons := decodeAll_consecutive E.one s.m.mem n a n
  refine ⟨?_, ?_, ?_, hs.mem, hs.dict⟩
  · rw [hl]
    split
    · exact hcons
    · exact consecutive_take _ hcons
  · intro k hk hpos
    rw [hl, hk]
    have : disasmLimit stop (some k) = k := by cases stop <;> rfl
    rw [this, if_neg (by omega)]
    simp
    omega
  · rintro rfl rfl
    rw [hl, show disasmLimit none none = 10 from rfl, if_neg (by decide)]
    simp
    omega

example : (procDisassemble toyE exHost 100 none (some 3) toyBp).1 = .ok [⟨100, 5, "MOV".toList, [0xb8, 0, 0, 0, 0]⟩,
  ⟨105, 1, "NOP".toList, [0x90]⟩, ⟨106, 1, "NOP".toList, [0x90]⟩] := by decide +kernel

/-- `disassemble(start, nb_instr=n)` with complete reads: exactly the first `n` instructions of the memory,
when none of them is longer than MAX_INSTR_SIZE. Missing: longer instructions, and the last instruction
before a given `stop` (`C80_refuted`). -/
theorem C80_exact_partial (E : Disassembler) (h : BpHost) (hk : CompleteReplies h.kernel) (a : Nat) (nb : Option Nat)
    (s s' : BpSt) (r : List Instr) (l : List Spec.CodeItem) (hc : Spec.Code E.one s.m.mem a l)
    (hl : l.length = nb.getD 10) (hpos : 0 < l.length)
    (hsz : ∀ x ∈ l, x.2.1 ≤ E.maxSize) (hr : procDisassemble E h a none nb s = (.ok r, s')) :
    r = l.map fun x => ⟨x.1, x.2.1, x.2.2, Spec.codeAt s.m.mem x.1 x.2.1⟩ := by
  obtain ⟨n, _, hn, _, _, hrl⟩ := procDisassemble_ok hr
  have hn := hn hk
  have ht := total_le hsz
  have hle := length_le_total hc
  have hsize : disasmSize E a none nb = l.length * E.maxSize := by rw [hl]; rfl
  have hlim : disasmLimit none nb = l.length := by rw [hl]; rfl
  obtain ⟨q, hq⟩ := decodeAll_code l n a n hc (by omega) (by omega)
  rw [hlim, if_neg (by omega), ← hq, List.take_left' (by simp)] at hrl
  rw [hrl]
  rfl

example : 0 < toyCode.length ∧ toyCode.length = (none : Option Nat).getD 10 := by decide
example : (procDisassemble toyE exHost 100 none none toyBp).1 = .ok (toyCode.map fun x =>
  ⟨x.1, x.2.1, x.2.2, Spec.codeAt toyMem x.1 x.2.1⟩) := by decide +kernel

/-- `disassemble(start, stop)` with complete reads begins with all instructions that lie in
`[start, stop]`. -/
theorem C80_range (E : Disassembler) (h : BpHost) (hk : CompleteReplies h.kernel) (a stop : Nat) (hs : a ≤ stop)
    (s s' : BpSt) (r : List Instr) (l : List Spec.CodeItem) (hc : Spec.Code E.one s.m.mem a l)
    (ht : a + Spec.total l ≤ stop + 1)
    (hr : procDisassemble E h a (some stop) none s = (.ok r, s')) :
    (l.map fun x => (⟨x.1, x.2.1, x.2.2, Spec.codeAt s.m.mem x.1 x.2.1⟩ : Instr)) <+: r := by
  obtain ⟨n, _, hn, _, _, hrl⟩ := procDisassemble_ok hr
  have hn := hn hk
  have hsize : disasmSize E a (some stop) none = stop - a + 1 := by
    show max a stop - a + 1 = _
    rw [Nat.max_eq_right hs]
  have hle := length_le_total hc
  have hp := decodeAll_code l n a n hc (by omega) (by omega)
  rw [show disasmLimit (some stop) none = 0 from rfl, if_pos rfl] at hrl
  rw [hrl]
  exact hp

example : (procDisassemble toyE exHost 100 (some 105) none toyBp).1 = .ok [⟨100, 5, "MOV".toList, [0xb8, 0, 0, 0, 0]⟩,
  ⟨105, 1, "NOP".toList, [0x90]⟩] := by decide +kernel

/-- With a stop address the last instruction may be one that is not in memory: the code read ends with the
byte at `stop`, so an instruction that begins before and ends after it is decoded from its first bytes only. Here
`where 100 102` reads three bytes of the `mov` at 100 and shows them as data. -/
theorem C80_refuted :
    ¬ ∀ (E : Disassembler) (h : BpHost) (s s' : BpSt) (a stop : Nat) (r : List Instr) (l : List Spec.CodeItem),
      CompleteReplies h.kernel → E.bytesHex = false → Spec.Code E.one s.m.mem a l → a ≤ stop →
      stop + 1 < a + Spec.total l → procDisassemble E h a (some stop) none s = (.ok r, s') →
      r <+: l.map fun x => (⟨x.1, x.2.1, x.2.2, Spec.codeAt s.m.mem x.1 x.2.1⟩ : Instr) := by
  intro H
  have := H toyE exHost toyBp _ 100 102 _ toyCode toy_complete rfl toy_code (by decide) (by decide)
    (Prod.ext (show (procDisassemble toyE exHost 100 (some 102) none toyBp).1 = .ok [⟨100, 1, "DB".toList, [0xb8]⟩,
      ⟨101, 1, "DB".toList, [0]⟩, ⟨102, 1, "DB".toList, [0]⟩] by decide +kernel) rfl)
  revert this
  decide

/-- With the `libdistorm64` wrapper on Python 3 nothing can be disassembled: whenever the decoder finds an
instruction, TypeError is raised (`_WString.__str__` returns bytes). -/
theorem C80_wrapper_refuted (E : Disassembler) (hE : E.bytesHex = true) (code : Bytes) (a : Nat) (i : Instr) :
    disassembleFirst E code a ≠ .ok i := by
  unfold disassembleFirst disassembleCode
  rw [hE]
  cases decodeAll E.one code.length a code <;> simp

/-- If the decoder finds no instruction at the address (or one that does not fit), one instruction is asked in vain: PtraceError, whatever decoder. -/
theorem C80_none (E : Disassembler) (code : Bytes) (a : Nat)
    (h : ∀ n text, E.one a code = some (n, text) → n = 0 ∨ code.length < n) : disassembleFirst E code a = .error (.ptrace none) := by
  have hl : decodeAll E.one code.length a code = [] := by
    cases hc : code.length with
    | zero => rfl
    | succ m =>
      rw [decodeAll]
      cases ho : E.one a code with
      | none => rfl
      | some x => dsimp only; rw [if_pos (h x.1 x.2 ho)]
  unfold disassembleFirst disassembleCode
  rw [hl]
  simp

example : disassembleFirst toyE [] 100 = .error (.ptrace none) := C80_none toyE [] 100 (by
  intro n text _
  by_cases h : n = 0
  · exact Or.inl h
  · exact Or.inr (by simpa [Nat.pos_iff_ne_zero] using h))

/-- The default dump (`where START`): ten instructions of memory. -/
theorem C80_where_partial (E : Disassembler) (h : BpHost) (hk : CompleteReplies h.kernel) (a : Nat) (ip : Option Nat)
    (s s' : DumpSt) (l : List Spec.CodeItem) (hc : Spec.Code E.one s.p.m.mem a l)
    (hl : l.length = 10) (hsz : ∀ x ∈ l, x.2.1 ≤ E.maxSize)
    (hr : dumpCodeAt (some E) h a none ip false s = (.ok (), s')) :
    s'.out = s.out ++ .header :: l.map (fun x =>
      DumpLine.instr ⟨x.1, x.2.1, x.2.2, Spec.codeAt s.p.m.mem x.1 x.2.1⟩ (decide (some x.1 = ip)) false) := by
  unfold dumpCodeAt at hr
  simp only [] at hr
  rw [Py.run_bind_ok (logLine_run _ _)] at hr
  simp only [Bool.false_eq_true, if_false] at hr
  obtain ⟨r, u, h1, h2⟩ := Py.ok_of_bind hr
  have h3 : ∃ p', procDisassemble E h a none none s.p = (.ok r, p') ∧ u.out = s.out ++ [.header] := by
    unfold onProc at h1
    simp only [dumpStop, Option.map_none] at h1
    generalize procDisassemble E h a none none s.p = x at h1 ⊢
    obtain ⟨y, p'⟩ := x
    injection h1 with h4 h5
    subst h4
    subst h5
    exact ⟨_, rfl, rfl⟩
  obtain ⟨p', h3, hout⟩ := h3
  have h4 := C80_exact_partial E h hk a none s.p p' r l hc (by rw [hl]; rfl) (by omega) hsz h3
  rw [dumpAll_run] at h2
  injection h2 with _ h2
  rw [← h2]
  dsimp only
  rw [hout, h4]
  simp

example : (dumpCodeAt (some toyE) exHost 100 none (some 105) false { p := toyBp }).2.out.take 3 = [.header,
  .instr ⟨100, 5, "MOV".toList, [0xb8, 0, 0, 0, 0]⟩ false false, .instr ⟨105, 1, "NOP".toList, [0x90]⟩ true false] := by
  decide +kernel

/-- Without a disassembler the dump is one line with the bytes of memory: 32 of them, or those up to the stop
address. -/
theorem C80_bytes_partial (h : BpHost) (hk : CompleteReplies h.kernel) (a : Nat) (stop ip : Option Nat) (bp : Bool)
    (s s' : DumpSt) (hs : ∀ x, stop = some x → a ≤ x ∧ x < a + 1024)
    (hr : dumpCodeAt none h a stop ip bp s = (.ok (), s')) :
    s'.out = s.out ++ [.bytes (Spec.codeAt s.p.m.mem a ((stop.map fun x => x + 1 - a).getD 32))] := by
  have key : ∃ c u, onProc (onMem (readBytes h.kernel a ((stop.map fun x => x + 1 - a).getD 32))) s = (.ok c, u) ∧
      logLine (.bytes c) u = (.ok (), s') := by
    cases stop with
    | none => exact Py.ok_of_bind hr
    | some x =>
      obtain ⟨h1, h2⟩ := hs x rfl
      have hsz : min (max a x) (a + 1024 - 1) - a + 1 = x + 1 - a := by
        rw [Nat.max_eq_right h1, Nat.min_eq_left (by omega)]
        omega
      obtain ⟨c, u, h3, h4⟩ := Py.ok_of_bind hr
      refine ⟨c, u, ?_, h4⟩
      simp only [dumpStop, Option.map_some, hsz] at h3
      exact h3
  obtain ⟨c, u, h1, h2⟩ := key
  rw [logLine_run] at h2
  injection h2 with _ h2
  generalize (stop.map fun x => x + 1 - a).getD 32 = n at h1 ⊢
  have h3 : (readBytes h.kernel a n s.p.m).1 = .ok c ∧ u.out = s.out := by
    unfold onProc onMem at h1
    generalize readBytes h.kernel a n s.p.m = x at h1 ⊢
    obtain ⟨y, m'⟩ := x
    injection h1 with h4 h5
    exact ⟨h4, by rw [← h5]⟩
  have hd := ((readBytes_readRun h.kernel a n s.p.m).result c h3.1).2
  rw [C10_partial h.kernel a n s.p.m c (Or.inl hk) h3.1] at hd
  rw [← h2, ← h3.2]
  dsimp only
  rw [hd]
  rfl

example : (dumpCodeAt none exHost 100 (some 105) none false { p := toyBp }).2.out =
    [.bytes [0xb8, 0, 0, 0, 0, 0x90]] := by decide +kernel

end PT
