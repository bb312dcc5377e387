import Verif.Model.Breakpoint
import Verif.Spec.Breakpoint
import Verif.Lemmas.Memory2
import Verif.Lemmas.Regs
import Verif.Lemmas.Dict

namespace PT

/-- A non-empty read that returns delivers at least one byte. -/
theorem readBytes_pos (k : Kernel) (a n : Nat) (s : MemSt) (d : Bytes) (hn : 0 < n)
    (h : (readBytes k a n s).1 = .ok d) : 0 < d.length := by
  have hpeek : ∀ s : MemSt, (readBytesPeek k a n s).1 = .ok d → 0 < d.length := by
    intro s h
    obtain ⟨_, hp⟩ := readBytesPeek_run k a n s
    rcases hp.outcome with h1 | ⟨_, _, _, _, h1⟩
    · rw [h] at h1; injection h1 with h1; rw [h1]; simpa using hn
    · rw [h] at h1; cases h1
  have hfile : ∀ s : MemSt, (readMemFile k a n s).1 = .ok d → 0 < d.length := by
    intro s h
    unfold readMemFile at h
    by_cases hb : 2 ^ 63 ≤ a
    · rw [if_pos hb] at h; cases h
    · rw [if_neg hb] at h
      dsimp only at h
      cases hr : k.readReply s.log a n with
      | err e => rw [hr] at h; cases h
      | count c =>
        rw [hr] at h
        dsimp only at h
        by_cases hz : (bytesAt s.mem a (min c n)).length = 0 ∧ n ≠ 0
        · rw [if_pos hz] at h; exact hpeek _ h
        · rw [if_neg hz] at h
          injection h with h
          subst h
          omega
  unfold readBytes at h
  by_cases hf : s.fallback = true
  · rw [if_pos hf] at h; exact hpeek _ h
  · rw [if_neg hf] at h
    by_cases hm : s.memFile = true
    · rw [if_pos hm] at h; exact hfile _ h
    · rw [if_neg hm] at h
      dsimp only at h
      by_cases ho : k.openErr s.log ≠ 0
      · rw [if_pos ho] at h; exact hpeek _ h
      · rw [if_neg ho] at h; exact hfile _ h

/-- Byte `i` of the trap instruction. -/
def trapByte (h : BpHost) (i : Nat) : Byte :=
  if h.powerpc then (wordBytes h.kernel.arch 0x0cc00000).getD i 0 else 0xCC

theorem bpTrap_eq (h : BpHost) (size : Option Nat) :
    bpTrap h (bpSize h size) = .ok ((List.range (bpSize h size)).map (trapByte h)) := by
  unfold bpTrap bpSize trapByte
  by_cases hp : h.powerpc = true
  · simp only [hp, if_true]
    have h1 : word2bytes h.kernel.arch (0x0cc00000 : Nat) = .ok (wordBytes h.kernel.arch 0x0cc00000) := by
      have hlt : (0x0cc00000 : Nat) < 256 ^ h.kernel.arch.W := by
        unfold Arch.W; split <;> decide
      rw [word2bytes, packUint_ok hlt]; rfl
    rw [show (0x0cc00000 : Int) = ((0x0cc00000 : Nat) : Int) from rfl, h1]
    congr 1
    apply List.ext_getElem
    · simp [wordBytes_length]
    · intro i h1 h2
      simp [List.getD_eq_getElem?_getD, List.getElem?_eq_getElem h1]
  · simp only [hp]
    simp only [Bool.false_eq_true, if_false]
    congr 1
    apply List.ext_getElem
    · simp
    · intro i h1 h2; simp

theorem onMem_ok {α : Type} {f : Py MemSt α} {s : BpSt} {a : α} {m' : MemSt} (h : f s.m = (.ok a, m')) :
    onMem f s = (.ok a, { s with m := m' }) := by unfold onMem; rw [h]
theorem onMem_error {α : Type} {f : Py MemSt α} {s : BpSt} {e : Exc} {m' : MemSt} (h : f s.m = (.error e, m')) :
    onMem f s = (.error e, { s with m := m' }) := by unfold onMem; rw [h]
theorem onRegs_ok {α : Type} {f : Py RegSt α} {s : BpSt} {a : α} {r' : RegSt} (h : f s.r = (.ok a, r')) :
    onRegs f s = (.ok a, { s with r := r' }) := by unfold onRegs; rw [h]
theorem onRegs_error {α : Type} {f : Py RegSt α} {s : BpSt} {e : Exc} {r' : RegSt} (h : f s.r = (.error e, r')) :
    onRegs f s = (.error e, { s with r := r' }) := by unfold onRegs; rw [h]

/-- The two outcomes of `createBreakpoint`. -/
theorem createBreakpoint_cases (h : BpHost) (a : Nat) (size : Option Nat) (s : BpSt) :
    (∃ e m', createBreakpoint h a size s = (.error e, { s with m := m' }) ∧
      ∃ j, (0 < bpSize h size → j < bpSize h size) ∧
        m'.mem = storeBytes s.m.mem a (((List.range (bpSize h size)).map (trapByte h)).take j)) ∨
    (∃ m' old, createBreakpoint h a size s = (.ok s.objs.length, { s with
          m := m', objs := s.objs ++ [⟨a, bpSize h size, old, true⟩],
          dict := dictSet s.dict a s.objs.length }) ∧
      findBreakpoint s a = none ∧ old.length ≤ bpSize h size ∧ old = bytesAt s.m.mem a old.length ∧
      (0 < bpSize h size → 0 < old.length) ∧
      m'.mem = storeBytes s.m.mem a ((List.range (bpSize h size)).map (trapByte h)) ∧
      (readBytes h.kernel a (bpSize h size) s.m).1 = .ok old) := by
  generalize hn : bpSize h size = n
  unfold createBreakpoint
  cases hf : findBreakpoint s a with
  | some i => exact Or.inl ⟨_, s.m, rfl, 0, fun h => h, by simp⟩
  | none =>
    dsimp only
    unfold newBreakpoint
    dsimp only
    rw [hn]
    have hr := readBytes_readRun h.kernel a n s.m
    have hpos := readBytes_pos h.kernel a n s.m
    cases hrd : readBytes h.kernel a n s.m with
    | mk res m1 =>
      rw [hrd] at hr hpos
      cases res with
      | error e =>
        left
        rw [Py.bind_eq_error (e := e) (s' := { s with m := m1 })]
        · exact ⟨e, m1, rfl, 0, fun h => h, by rw [hr.mem]; simp⟩
        · rw [Py.bind_eq_error (onMem_error hrd)]
      | ok old =>
        obtain ⟨h1, h2⟩ := hr.result old rfl
        have hw := writeBytes_run h.kernel a ((List.range n).map (trapByte h)) m1
        cases hwr : writeBytes h.kernel a ((List.range n).map (trapByte h)) m1 with
        | mk res2 m2 =>
          rw [hwr] at hw
          obtain ⟨j, hj1, hj2, hj3, hj4⟩ := hw.mem
          have ht := bpTrap_eq h size
          rw [hn] at ht
          have hmem : m1.mem = s.m.mem := hr.mem
          cases res2 with
          | error e =>
            left
            refine ⟨e, m2, ?_, j, ?_, by rw [← hmem]; exact hj2⟩
            · rw [Py.bind_eq_error (e := e) (s' := { s with m := m2 })]
              rw [Py.bind_eq_ok (onMem_ok hrd), Py.bind_eq_ok (a := (List.range n).map (trapByte h))
                (s' := { s with m := m1 }) (by unfold liftE; rw [ht])]
              rw [Py.bind_eq_error (onMem_error hwr)]
            · intro hp
              have := hj4 e rfl (by
                intro h0
                have := congrArg List.length h0
                simp at this; omega)
              simpa using this
          | ok u =>
            right
            refine ⟨m2, old, ?_, rfl, h1, h2, fun hp => hpos old hp rfl, ?_, rfl⟩
            · rw [Py.bind_eq_ok (a := s.objs.length)
                (s' := { s with m := m2, objs := s.objs ++ [⟨a, n, old, true⟩] })]
              rw [Py.bind_eq_ok (onMem_ok hrd), Py.bind_eq_ok (a := (List.range n).map (trapByte h))
                (s' := { s with m := m1 }) (by unfold liftE; rw [ht])]
              rw [Py.bind_eq_ok (onMem_ok hwr)]
            · have hj2 : m2.mem = storeBytes m1.mem a (((List.range n).map (trapByte h)).take j) := hj2
              rw [hj2, hj3 rfl, List.take_length, hmem]

/-- The outcomes of `desinstall` of an installed breakpoint of a running process. -/
theorem desinstall_cases (h : BpHost) (id : Nat) (ip : Bool) (s : BpSt) (b : BpObj) (hb : s.objs[id]? = some b)
    (hi : b.installed = true) (hrun : s.running = true) :
    (∃ e m', desinstall h id ip s = (.error e, { s with
        m := m', objs := s.objs.set id { b with installed := false } }) ∧
      ∃ j, (b.oldBytes ≠ [] → j < b.oldBytes.length) ∧ m'.mem = storeBytes s.m.mem b.address (b.oldBytes.take j)) ∨
    (∃ e m' r', desinstall h id ip s =
        (.error e, { s with m := m', r := r', objs := s.objs.set id { b with installed := false } }) ∧
      m'.mem = storeBytes s.m.mem b.address b.oldBytes ∧
      (ip = true ∨ ∀ x ∈ s.dict, x.1 ≠ b.address)) ∨
    (∃ m' r', desinstall h id ip s = (.ok (), { s with
        m := m', r := r',
        objs := s.objs.set id { b with installed := false },
        dict := dictDel s.dict b.address }) ∧
      m'.mem = storeBytes s.m.mem b.address b.oldBytes ∧
      (ip = true → setInstrPointer h.table h.regKernel b.address s.r = (.ok (), r')) ∧ (ip = false → r' = s.r)) := by
  unfold desinstall
  rw [hb]
  dsimp only
  rw [if_neg (by simp [hi])]
  have hw := writeBytes_run h.kernel b.address b.oldBytes s.m
  cases hwr : writeBytes h.kernel b.address b.oldBytes s.m with
  | mk res m1 =>
    rw [hwr] at hw
    obtain ⟨j, hj1, hj2, hj3, hj4⟩ := hw.mem
    cases res with
    | error e =>
      left
      refine ⟨e, m1, ?_, j, fun hne => hj4 e rfl hne, hj2⟩
      rw [Py.bind_eq_error (e := e) (s' := { s with m := m1, objs := s.objs.set id { b with installed := false } })]
      dsimp only
      rw [if_pos hrun]
      exact onMem_error hwr
    | ok u =>
      right
      have hm : m1.mem = storeBytes s.m.mem b.address b.oldBytes := by
        have hj2 : m1.mem = storeBytes s.m.mem b.address (b.oldBytes.take j) := hj2
        rw [hj2, hj3 rfl, List.take_length]
      rw [Py.bind_eq_ok (a := ()) (s' := { s with m := m1, objs := s.objs.set id { b with installed := false } })
        (by dsimp only; rw [if_pos hrun]; exact onMem_ok hwr)]
      have hrem : ∀ r', (removeBreakpoint b.address { s with m := m1, r := r', objs := s.objs.set id { b with installed := false } } =
          (.ok (), { s with m := m1, r := r', objs := s.objs.set id { b with installed := false }, dict := dictDel s.dict b.address })) ∨
          ((∀ x ∈ s.dict, x.1 ≠ b.address) ∧ removeBreakpoint b.address { s with m := m1, r := r', objs := s.objs.set id { b with installed := false } } =
          (.error .key, { s with m := m1, r := r', objs := s.objs.set id { b with installed := false } })) := by
        intro r'
        unfold removeBreakpoint
        by_cases ha : dictHas s.dict b.address = true
        · left; simp only [ha, if_true]
        · right
          refine ⟨?_, by simp only [ha]; rfl⟩
          intro x hx hxa
          exact ha (dictHas_iff.2 ⟨x.2, by rw [← hxa]; exact hx⟩)
      cases hip : ip with
      | false =>
        simp only [Bool.false_eq_true, if_false]
        rw [Py.bind_eq_ok (a := ()) (by rfl)]
        rcases hrem s.r with h1 | ⟨h1, h2⟩
        · right
          exact ⟨m1, s.r, h1, hm, (by intro h; cases h), fun _ => rfl⟩
        · left
          exact ⟨_, m1, s.r, h2, hm, Or.inr h1⟩
      | true =>
        simp only [if_true]
        cases hset : setInstrPointer h.table h.regKernel b.address s.r with
        | mk res3 r1 =>
          cases res3 with
          | error e =>
            left
            refine ⟨e, m1, r1, ?_, hm, Or.inl trivial⟩
            rw [Py.bind_eq_error (onRegs_error (s := { s with m := m1, objs := s.objs.set id { b with installed := false } }) hset)]
          | ok u =>
            rw [Py.bind_eq_ok (a := ()) (onRegs_ok (s := { s with m := m1, objs := s.objs.set id { b with installed := false } }) hset)]
            rcases hrem r1 with h1 | ⟨h1, h2⟩
            · right
              exact ⟨m1, r1, h1, hm, fun _ => rfl, by intro h; cases h⟩
            · left
              exact ⟨_, m1, r1, h2, hm, Or.inl trivial⟩

/-! ### histories -/

/-- The listed breakpoints as (address, size). -/
def places (s : BpSt) : List (Nat × Nat) :=
  s.dict.filterMap fun e => (s.objs[e.2]?).map fun b => (b.address, b.size)

/-- Invariant of histories: see `Props/Breakpoint`. -/
structure BpInv (h : BpHost) (orig : Nat → Byte) (s : BpSt) : Prop where
  running : s.running = true
  ents : ∀ e ∈ s.dict, ∃ b, s.objs[e.2]? = some b ∧ b.address = e.1 ∧ 0 < b.size ∧
    b.oldBytes = bytesAt orig b.address b.size
  keys : (s.dict.map Prod.fst).Nodup
  disj : ∀ e ∈ s.dict, ∀ f ∈ s.dict, e.1 ≠ f.1 → ∀ b c, s.objs[e.2]? = some b → s.objs[f.2]? = some c →
    b.address + b.size ≤ c.address ∨ c.address + c.size ≤ b.address
  inst : ∀ id b, s.objs[id]? = some b → b.installed = true → (b.address, id) ∈ s.dict
  mem : Spec.Patched orig (trapByte h) (places s) s.m.mem

theorem mem_places {s : BpSt} {p : Nat × Nat} : p ∈ places s ↔
    ∃ e ∈ s.dict, ∃ b, s.objs[e.2]? = some b ∧ (b.address, b.size) = p := by
  unfold places
  simp [List.mem_filterMap]

theorem findBreakpoint_none {s : BpSt} {a : Nat} (h : findBreakpoint s a = none) (e : Nat × Nat) (he : e ∈ s.dict)
    (b : BpObj) (hb : s.objs[e.2]? = some b) : a < b.address ∨ b.address + b.size ≤ a := by
  unfold findBreakpoint at h
  rw [List.findSome?_eq_none_iff] at h
  have := h e he
  unfold bpCovers at this
  rw [hb] at this
  dsimp only at this
  split at this
  · cases this
  · omega

end PT
