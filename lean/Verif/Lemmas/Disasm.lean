import Verif.Model.Disasm
import Verif.Spec.Disasm
import Verif.Lemmas.Py
import Verif.Lemmas.Breakpoint2
import Verif.Props.Memory

namespace PT
open Props

theorem codeAt_eq (mem : Nat → Byte) (a n : Nat) : Spec.codeAt mem a n = bytesAt mem a n := rfl

/-- A code that starts with an instruction. -/
theorem decodeAll_cons {one : Nat → Bytes → Option (Nat × Str)} {mem : Nat → Byte} {a n : Nat} {t : Str}
    (h : Spec.IsInstr one mem a n t) (fuel : Nat) (rest : Bytes) :
    decodeAll one (fuel + 1) a (bytesAt mem a n ++ rest) =
      ⟨a, n, t, bytesAt mem a n⟩ :: decodeAll one fuel (a + n) rest := by
  have h1 := h.2 rest
  rw [codeAt_eq] at h1
  have hl : (bytesAt mem a n).length = n := by simp
  simp only [decodeAll]
  rw [h1]
  simp only []
  rw [if_neg (by simp [hl]; have := h.1; omega), List.take_left' hl, List.drop_left' hl]

theorem disassembleFirst_instr {E : Disassembler} (hE : E.bytesHex = false) {mem : Nat → Byte} {a n : Nat} {t : Str}
    (h : Spec.IsInstr E.one mem a n t) (rest : Bytes) :
    disassembleFirst E (bytesAt mem a n ++ rest) a = .ok ⟨a, n, t, bytesAt mem a n⟩ := by
  have hpos : ∃ m, (bytesAt mem a n ++ rest).length = m + 1 := by
    refine ⟨(bytesAt mem a n ++ rest).length - 1, ?_⟩
    have := h.1
    simp
    omega
  obtain ⟨m, hm⟩ := hpos
  unfold disassembleFirst disassembleCode
  rw [hE, hm, decodeAll_cons h]
  rfl

/-- Memory operations that only read: what stays the same. -/
structure Same (p q : BpSt) : Prop where
  mem : q.m.mem = p.m.mem
  dict : q.dict = p.dict
  objs : q.objs = p.objs
  running : q.running = p.running
  regs : q.r = p.r

theorem Same.refl (p : BpSt) : Same p p := ⟨rfl, rfl, rfl, rfl, rfl⟩
theorem Same.trans {p q r : BpSt} (h : Same p q) (g : Same q r) : Same p r :=
  ⟨g.mem.trans h.mem, g.dict.trans h.dict, g.objs.trans h.objs, g.running.trans h.running, g.regs.trans h.regs⟩

theorem onMem_read_same (k : Kernel) (a n : Nat) (s : BpSt) : Same s (onMem (readBytes k a n) s).2 := by
  have h := (readBytes_readRun k a n s.m).mem
  unfold onMem
  generalize readBytes k a n s.m = x at h ⊢
  obtain ⟨r, m'⟩ := x
  exact ⟨h, rfl, rfl, rfl, rfl⟩

theorem procDisassembleOne_same (E : Disassembler) (h : BpHost) (a : Nat) (s : BpSt) :
    Same s (procDisassembleOne E h a s).2 := by
  have hs := onMem_read_same h.kernel a E.maxSize s
  unfold procDisassembleOne
  cases hr : onMem (readBytes h.kernel a E.maxSize) s with
  | mk res s' =>
    rw [hr] at hs
    cases res with
    | error e => rw [Py.run_bind_error hr]; exact hs
    | ok c =>
      rw [Py.run_bind_ok hr]
      unfold liftE
      cases disassembleFirst E c a <;> exact hs

/-- A successful disassembly at an address where memory holds an instruction gives that instruction. -/
theorem procDisassembleOne_instr {E : Disassembler} (hE : E.bytesHex = false) {h : BpHost}
    (hk : CompleteReplies h.kernel) {a n : Nat} {t : Str} {s s' : BpSt} {i : Instr}
    (hi : Spec.IsInstr E.one s.m.mem a n t) (hn : n ≤ E.maxSize)
    (hr : procDisassembleOne E h a s = (.ok i, s')) : i = ⟨a, n, t, bytesAt s.m.mem a n⟩ := by
  unfold procDisassembleOne at hr
  obtain ⟨c, u, h1, h2⟩ := Py.ok_of_bind hr
  have h3 : (readBytes h.kernel a E.maxSize s.m).1 = .ok c := by
    unfold onMem at h1
    generalize readBytes h.kernel a E.maxSize s.m = x at h1 ⊢
    obtain ⟨r, m'⟩ := x
    injection h1
  have hlen := C10_partial h.kernel a E.maxSize s.m c (Or.inl hk) h3
  have hd := ((readBytes_readRun h.kernel a E.maxSize s.m).result c h3).2
  rw [hlen] at hd
  have he : E.maxSize = n + (E.maxSize - n) := by omega
  rw [he, bytesAt_add] at hd
  unfold liftE at h2
  rw [hd, disassembleFirst_instr hE hi] at h2
  injection h2 with h2 _
  injection h2 with h2
  exact h2.symm

/-- An instruction depends on its bytes only. -/
theorem isInstr_congr {one : Nat → Bytes → Option (Nat × Str)} {mem mem' : Nat → Byte} {a n : Nat} {t : Str}
    (h : Spec.IsInstr one mem a n t) (he : bytesAt mem' a n = bytesAt mem a n) : Spec.IsInstr one mem' a n t := by
  refine ⟨h.1, fun rest => ?_⟩
  have h1 := h.2 rest
  rw [codeAt_eq] at h1 ⊢
  rw [he]
  exact h1

theorem bytesAt_congr {m m' : Nat → Byte} {a n : Nat} (h : ∀ i, i < n → m (a + i) = m' (a + i)) :
    bytesAt m a n = bytesAt m' a n := by
  unfold bytesAt
  apply List.map_congr_left
  intro i hi
  exact h i (List.mem_range.1 hi)

end PT
