import Verif.Lemmas.Breakpoint2
import Verif.Props.Memory
import Verif.Props.Regs

/-! Property theorems C19–C21: breakpoints. -/

namespace PT.Props
open PT

/-! ## C19 — one breakpoint -/

/-- Host of the examples. -/
def exHost : BpHost := { kernel := exKernel, powerpc := false, table := regsX86_64, regKernel := fun _ => 0 }
/-- Initial state of the examples: memory full of 0xff. -/
def exBp : BpSt := { m := exOnes, r := exRegs, running := true }

/-- Installing: only `[address, address+size)` changes and it holds the trap instruction. -/
theorem C19_install (h : BpHost) (a : Nat) (size : Option Nat) (s s1 : BpSt) (id : Nat)
    (hc : createBreakpoint h a size s = (.ok id, s1)) :
    Spec.Patched s.m.mem (trapByte h) [(a, bpSize h size)] s1.m.mem ∧ s1.r = s.r ∧ s1.running = s.running ∧
    findBreakpoint s a = none := by
  rcases createBreakpoint_cases h a size s with ⟨e, m', h1, _⟩ | ⟨m', old, h1, hfind, _, _, _, hmem, _⟩
  · rw [h1] at hc; injection hc with hc _; cases hc
  · rw [h1] at hc; injection hc with _ hs; subst hs
    refine ⟨⟨?_, ?_⟩, rfl, rfl, hfind⟩
    · intro p hp i hi
      rw [List.mem_singleton] at hp; subst hp
      dsimp only at hi ⊢
      rw [hmem, storeBytes_in _ _ _ _ (by simpa using hi)]
      simp
    · intro x hx
      dsimp only
      rw [hmem, storeBytes_out]
      simpa using hx (a, bpSize h size) (by simp)

example := C19_install exHost 5 (some 3) exBp (createBreakpoint exHost 5 (some 3) exBp).2 0 (Prod.ext (by decide +kernel) rfl)

/-- `findBreakpoint` finds the new breakpoint at exactly its addresses (earlier breakpoints come first). -/
theorem C19_find (h : BpHost) (a : Nat) (size : Option Nat) (s s1 : BpSt) (id : Nat)
    (hd : ∀ e ∈ s.dict, e.2 < s.objs.length ∧ e.1 ≠ a)
    (hc : createBreakpoint h a size s = (.ok id, s1)) (x : Nat) :
    findBreakpoint s1 x = match findBreakpoint s x with
      | some i => some i
      | none => if a ≤ x ∧ x < a + bpSize h size then some id else none := by
  rcases createBreakpoint_cases h a size s with ⟨e, m', h1, _⟩ | ⟨m', old, h1, hfind, _, _, _, hmem, _⟩
  · rw [h1] at hc; injection hc with hc _; cases hc
  · rw [h1] at hc; injection hc with hid hs; injection hid with hid; subst hs; subst hid
    unfold findBreakpoint
    dsimp only
    rw [dictSet_fresh (fun e he => (hd e he).2), List.findSome?_append]
    have hcong : ∀ (l : List (Nat × Nat)), (∀ e ∈ l, e.2 < s.objs.length) →
        l.findSome? (bpCovers (s.objs ++ [(⟨a, bpSize h size, old, true⟩ : BpObj)]) x) =
        l.findSome? (bpCovers s.objs x) := by
      intro l
      induction l with
      | nil => intro _; rfl
      | cons e l ih =>
        intro hl
        rw [List.findSome?_cons, List.findSome?_cons, ih fun e he => hl e (List.mem_cons_of_mem _ he)]
        unfold bpCovers
        rw [List.getElem?_append_left (hl e (by simp))]
    rw [hcong s.dict fun e he => (hd e he).1]
    cases hf : s.dict.findSome? (bpCovers s.objs x) with
    | some i => rfl
    | none => simp [bpCovers]

example := C19_find exHost 20 none (createBreakpoint exHost 5 (some 3) exBp).2
  (createBreakpoint exHost 20 none (createBreakpoint exHost 5 (some 3) exBp).2).2 1 (by decide +kernel) (Prod.ext (by decide +kernel) rfl) 6

/-- Removing the breakpoint restores memory, whatever happened in between, as long as memory and the object
were not changed. The stored bytes must be complete; this always holds for one byte (`C19_one_byte`) and
for complete `/proc` replies; missing: a short reply for a larger breakpoint (`C19_refuted`). -/
theorem C19_restore_partial (h : BpHost) (a : Nat) (size : Option Nat) (s s1 s2 s3 : BpSt) (id : Nat) (ip : Bool)
    (hc : createBreakpoint h a size s = (.ok id, s1))
    (hfull : ∀ b, s1.objs[id]? = some b → b.oldBytes.length = bpSize h size)
    (hmem : s2.m.mem = s1.m.mem) (hobj : s2.objs[id]? = s1.objs[id]?) (hrun : s2.running = true)
    (hd : desinstall h id ip s2 = (.ok (), s3)) :
    s3.m.mem = s.m.mem := by
  rcases createBreakpoint_cases h a size s with ⟨e, m', h1, _⟩ | ⟨m', old, h1, hfind, hlen, hold, _, hm, _⟩
  · rw [h1] at hc; injection hc with hc _; cases hc
  · rw [h1] at hc; injection hc with hid hs; injection hid with hid; subst hs; subst hid
    have hnew : (s.objs ++ [(⟨a, bpSize h size, old, true⟩ : BpObj)])[s.objs.length]? =
        some ⟨a, bpSize h size, old, true⟩ := by simp
    have hl := hfull _ hnew
    dsimp only at hobj hmem hl
    rw [hnew] at hobj
    rcases desinstall_cases h s.objs.length ip s2 _ hobj rfl hrun with ⟨e, m1, h2, _⟩ | ⟨e, m1, r1, h2, _⟩ | ⟨m1, r1, h2, h3, _⟩
    · rw [h2] at hd; injection hd with hd _; cases hd
    · rw [h2] at hd; injection hd with hd _; cases hd
    · rw [h2] at hd; injection hd with _ hd; subst hd
      dsimp only at h3 ⊢
      rw [h3, hmem, hm]
      funext x
      by_cases hx : x < a ∨ a + bpSize h size ≤ x
      · rw [storeBytes_out _ _ _ _ (by rw [hl]; exact hx), storeBytes_out _ _ _ _ (by simpa using hx)]
      · have hxe : x = a + (x - a) := by omega
        have hlt : x - a < old.length := by rw [hl]; omega
        rw [hxe, storeBytes_in _ _ _ _ hlt]
        rw [List.getElem_of_eq hold, bytesAt_getElem]

-- three bytes are patched, then restored
example := C19_restore_partial exHost 5 (some 3) exBp (createBreakpoint exHost 5 (some 3) exBp).2
  (createBreakpoint exHost 5 (some 3) exBp).2 (desinstall exHost 0 false (createBreakpoint exHost 5 (some 3) exBp).2).2 0 false
  (Prod.ext (by decide +kernel) rfl) (by
    have h : ((createBreakpoint exHost 5 (some 3) exBp).2.objs[0]?).map (·.oldBytes.length) = some 3 := by decide +kernel
    intro b hb
    rw [hb] at h
    exact Option.some.inj h)
  rfl rfl (by decide +kernel) (Prod.ext (by decide +kernel) rfl)

/-- One byte breakpoints always store the complete instruction, whatever the kernel answers. -/
theorem C19_one_byte (h : BpHost) (a : Nat) (size : Option Nat) (s s1 : BpSt) (id : Nat) (h1 : bpSize h size = 1)
    (hc : createBreakpoint h a size s = (.ok id, s1)) :
    ∀ b, s1.objs[id]? = some b → b.oldBytes.length = bpSize h size := by
  rcases createBreakpoint_cases h a size s with ⟨e, m', h2, _⟩ | ⟨m', old, h2, _, hlen, _, hpos, _⟩
  · rw [h2] at hc; injection hc with hc _; cases hc
  · rw [h2] at hc; injection hc with hid hs; injection hid with hid; subst hs; subst hid
    intro b hb
    simp at hb
    subst hb
    dsimp only
    have := hpos (by omega)
    omega

example := C19_one_byte exHost 5 none exBp (createBreakpoint exHost 5 none exBp).2 0 rfl (Prod.ext (by decide +kernel) rfl)

/-- With complete `/proc` replies every breakpoint stores the complete instruction. -/
theorem C19_complete_replies (h : BpHost) (a : Nat) (size : Option Nat) (s s1 : BpSt) (id : Nat)
    (hr : CompleteReplies h.kernel) (hc : createBreakpoint h a size s = (.ok id, s1)) :
    ∀ b, s1.objs[id]? = some b → b.oldBytes.length = bpSize h size := by
  rcases createBreakpoint_cases h a size s with ⟨e, m', h2, _⟩ | ⟨m', old, h2, _, _, _, _, _, hrd⟩
  · rw [h2] at hc; injection hc with hc _; cases hc
  · rw [h2] at hc; injection hc with hid hs; injection hid with hid; subst hs; subst hid
    intro b hb
    simp at hb
    subst hb
    exact C10_partial h.kernel a _ s.m old (Or.inl hr) hrd

example : (createBreakpoint exHost 5 (some 3) exBp).1 = .ok 0 := by decide +kernel
example : let s1 := (createBreakpoint exHost 5 (some 3) exBp).2
    (desinstall exHost 0 false s1).1 = .ok () ∧ s1.m.mem 5 = 0xCC ∧ (desinstall exHost 0 false s1).2.m.mem 5 = 255 := by
  decide +kernel

/-- A kernel that answers reads of two bytes with one byte. -/
def exShortHost : BpHost := { exHost with kernel := { exKernel with
  readReply := fun _ _ n => if n = 2 then .count 1 else .count n } }

/-- Without complete replies the statement is false: after removal a trap byte stays behind. -/
theorem C19_refuted : ¬ ∀ (h : BpHost) (a : Nat) (size : Option Nat) (s s1 s3 : BpSt) (id : Nat),
    s.running = true → createBreakpoint h a size s = (.ok id, s1) → desinstall h id false s1 = (.ok (), s3) →
    s3.m.mem = s.m.mem := by
  intro H
  have hrun : (createBreakpoint exShortHost 4 (some 2) exBp).1 = .ok 0 := by decide +kernel
  have hrun2 : (desinstall exShortHost 0 false (createBreakpoint exShortHost 4 (some 2) exBp).2).1 = .ok () := by
    decide +kernel
  have := H exShortHost 4 (some 2) exBp (createBreakpoint exShortHost 4 (some 2) exBp).2
    (desinstall exShortHost 0 false (createBreakpoint exShortHost 4 (some 2) exBp).2).2 0 rfl
    (Prod.ext hrun rfl) (Prod.ext hrun2 rfl)
  have h5 := congrFun this 5
  exact absurd h5 (by decide +kernel)

/-! ## C20 — histories -/

/-- Histories of breakpoint operations. A breakpoint of one byte may be created anywhere and operations on it
may fail; larger ones must be created successfully, with complete stored bytes, away from listed ones. A
`desinstall` that also sets the instruction pointer must succeed. -/
inductive BpRun (h : BpHost) (s0 : BpSt) : BpSt → Prop
  | start : BpRun h s0 s0
  | create1 {s : BpSt} (a : Nat) (size : Option Nat) : BpRun h s0 s → bpSize h size = 1 →
      BpRun h s0 (createBreakpoint h a size s).2
  | create {s s' : BpSt} {id : Nat} (a : Nat) (size : Option Nat) : BpRun h s0 s →
      createBreakpoint h a size s = (.ok id, s') → 0 < bpSize h size →
      (∀ p ∈ places s, a + bpSize h size ≤ p.1 ∨ p.1 + p.2 ≤ a) →
      (∀ b, s'.objs[id]? = some b → b.oldBytes.length = bpSize h size) → BpRun h s0 s'
  | remove1 {s : BpSt} (id : Nat) : BpRun h s0 s → (∀ b, s.objs[id]? = some b → b.size = 1) →
      BpRun h s0 (desinstall h id false s).2
  | remove {s s' : BpSt} (id : Nat) (ip : Bool) : BpRun h s0 s → desinstall h id ip s = (.ok (), s') → BpRun h s0 s'

theorem bpRun_inv (h : BpHost) (s0 s : BpSt) (hd : s0.dict = []) (ho : s0.objs = []) (hr : s0.running = true)
    (hrun : BpRun h s0 s) : BpInv h s0.m.mem s := by
  induction hrun with
  | start =>
    refine ⟨hr, ?_, ?_, ?_, ?_, ?_⟩
    · rw [hd]; simp
    · rw [hd]; simp
    · rw [hd]; simp
    · rw [ho]; simp
    · unfold places; rw [hd]; exact ⟨by simp, by simp⟩
  | @create1 s a size hrun h1 ih =>
    cases hc : createBreakpoint h a size s with
    | mk res s' =>
      cases res with
      | error e => exact inv_create_fail ih hc h1
      | ok id =>
        refine inv_create ih hc (by omega) ?_ (C19_one_byte h a size s s' id h1 hc)
        intro p hp
        obtain ⟨e, he, b, hb, rfl⟩ := mem_places.1 hp
        have := findBreakpoint_none (C19_install h a size s s' id hc).2.2.2 e he b hb
        dsimp only
        omega
  | create a size _ hc hp hdis hold ih => exact inv_create ih hc hp hdis hold
  | @remove1 s id hrun h1 ih =>
    cases hc : desinstall h id false s with
    | mk res s' =>
      cases res with
      | error e => exact inv_desinstall_fail ih hc h1
      | ok u => exact inv_desinstall ih hc
  | remove id ip _ hd ih => exact inv_desinstall ih hd

/-- After any such history memory is the original program with traps exactly at the listed breakpoints.
Missing: larger breakpoints that cover a listed one (`C20_refuted`). -/
theorem C20_history_partial (h : BpHost) (s0 s : BpSt) (hd : s0.dict = []) (ho : s0.objs = [])
    (hr : s0.running = true) (hrun : BpRun h s0 s) :
    Spec.Patched s0.m.mem (trapByte h) (places s) s.m.mem ∧ (s.dict = [] → s.m.mem = s0.m.mem) := by
  have hinv := bpRun_inv h s0 s hd ho hr hrun
  refine ⟨hinv.mem, ?_⟩
  intro he
  funext x
  apply hinv.mem.2
  unfold places; rw [he]; simp

-- create at 7, fail to create there again, remove
example := C20_history_partial exHost exBp
  (desinstall exHost 0 false (createBreakpoint exHost 7 none (createBreakpoint exHost 7 none exBp).2).2).2 rfl rfl rfl
  (.remove 0 false (.create1 7 none (.create1 7 none .start rfl) rfl) (Prod.ext (by decide +kernel) rfl))

/-- The listed breakpoints never overlap and every installed object is listed. -/
theorem C20_listed_partial (h : BpHost) (s0 s : BpSt) (hd : s0.dict = []) (ho : s0.objs = [])
    (hr : s0.running = true) (hrun : BpRun h s0 s) (id : Nat) (b : BpObj) (hb : s.objs[id]? = some b)
    (hi : b.installed = true) : (b.address, id) ∈ s.dict ∧ b.oldBytes = bytesAt s0.m.mem b.address b.size := by
  have hinv := bpRun_inv h s0 s hd ho hr hrun
  have h1 := hinv.inst id b hb hi
  refine ⟨h1, ?_⟩
  obtain ⟨b', h2, _, _, h3⟩ := hinv.ents _ h1
  dsimp only at h2
  rw [hb] at h2; injection h2 with h2; subst h2; exact h3

-- a concrete history: create at 7, fail to create there again, remove
example : BpRun exHost exBp
    (desinstall exHost 0 false (createBreakpoint exHost 7 none (createBreakpoint exHost 7 none exBp).2).2).2 :=
  .remove 0 false (.create1 7 none (.create1 7 none .start rfl) rfl) (Prod.ext (by decide +kernel) rfl)

/-- A breakpoint of four bytes created over a listed one byte breakpoint: after removing both, the trap byte of
the first is left in memory although nothing is listed. -/
theorem C20_refuted :
    let s1 := (createBreakpoint exHost 4 (some 1) exBp).2
    let s2 := (createBreakpoint exHost 2 (some 4) s1).2
    let s3 := (desinstall exHost 0 false s2).2
    let s4 := (desinstall exHost 1 false s3).2
    (createBreakpoint exHost 4 (some 1) exBp).1 = .ok 0 ∧ (createBreakpoint exHost 2 (some 4) s1).1 = .ok 1 ∧
    (desinstall exHost 0 false s2).1 = .ok () ∧ (desinstall exHost 1 false s3).1 = .ok () ∧
    s4.dict = [] ∧ s4.m.mem 4 = 0xCC ∧ exBp.m.mem 4 = 255 := by decide +kernel

/-! ## C21 — desinstall -/

/-- A second `desinstall` does nothing at all, even when the first one raised, as long as the object was not
touched (only `desinstall` changes it). -/
theorem C21_idempotent (h : BpHost) (id : Nat) (ip ip' : Bool) (s s' : BpSt)
    (hs : s'.objs[id]? = ((desinstall h id ip s).2).objs[id]?) : desinstall h id ip' s' = (.ok (), s') := by
  have key : ∀ b, ((desinstall h id ip s).2).objs[id]? = some b → b.installed = false := by
    intro b hb
    unfold desinstall at hb
    cases ho : s.objs[id]? with
    | none =>
      rw [ho] at hb
      dsimp only at hb
      rw [ho] at hb; cases hb
    | some c =>
      rw [ho] at hb
      dsimp only at hb
      by_cases hi : c.installed = true
      · rw [if_neg (by simp [hi])] at hb
        have hobjs : ∀ (m : Py BpSt Unit) (f : Unit → Py BpSt Unit) (t : BpSt), (∀ t, (m t).2.objs = t.objs) →
            (∀ u t, (f u t).2.objs = t.objs) → (Py.bind m f t).2.objs = t.objs := by
          intro m f t h1 h2
          cases hm : m t with
          | mk res t' =>
            have := h1 t
            rw [hm] at this
            cases res with
            | error e => rw [Py.bind_eq_error hm]; exact this
            | ok u => rw [Py.bind_eq_ok hm, h2]; exact this
        rw [hobjs] at hb
        · have hlt := (List.getElem?_eq_some_iff.1 ho).1
          dsimp only at hb
          rw [List.getElem?_set_self hlt] at hb
          injection hb with hb
          rw [← hb]
        · intro t
          by_cases hr : t.running = true
          · simp only [hr, if_true]; rfl
          · simp only [hr]; rfl
        · intro _ t
          apply hobjs
          · intro t
            cases ip
            · rfl
            · rfl
          · intro _ t
            unfold removeBreakpoint
            split <;> rfl
      · rw [if_pos hi] at hb
        dsimp only at hb
        rw [ho] at hb
        injection hb with hb
        subst hb
        simpa using hi
  unfold desinstall
  rw [hs]
  cases hb : ((desinstall h id ip s).2).objs[id]? with
  | none => rfl
  | some b =>
    dsimp only
    rw [if_pos (by simp [key b hb])]

example := C21_idempotent exHost 0 false true (createBreakpoint exHost 5 none exBp).2
  (desinstall exHost 0 false (createBreakpoint exHost 5 none exBp).2).2 rfl

/-- On a process that is not running no memory is written or read. -/
theorem C21_dead (h : BpHost) (id : Nat) (ip : Bool) (s : BpSt) (hr : s.running = false) :
    (desinstall h id ip s).2.m = s.m := by
  unfold desinstall
  cases hb : s.objs[id]? with
  | none => rfl
  | some b =>
    dsimp only
    split
    · rfl
    · rw [Py.bind_eq_ok (a := ()) (s' := { s with objs := s.objs.set id { b with installed := false } })]
      · cases ip with
        | false =>
          simp only [Bool.false_eq_true, if_false]
          rw [show Py.bind (Py.pure ()) (fun _ => removeBreakpoint b.address) = removeBreakpoint b.address from rfl]
          unfold removeBreakpoint
          split <;> rfl
        | true =>
          simp only [if_true]
          cases hset : setInstrPointer h.table h.regKernel b.address s.r with
          | mk res r1 =>
            cases res with
            | error e =>
              rw [Py.bind_eq_error (onRegs_error (s := { s with objs := s.objs.set id { b with installed := false } }) hset)]
            | ok u =>
              rw [Py.bind_eq_ok (onRegs_ok (s := { s with objs := s.objs.set id { b with installed := false } }) hset)]
              unfold removeBreakpoint
              split <;> rfl
      · dsimp only
        rw [hr]; rfl

example := C21_dead exHost 0 false { (createBreakpoint exHost 5 none exBp).2 with running := false } rfl

/-- `desinstall(set_ip=True)` of an installed breakpoint of a running process sets the instruction pointer to the
breakpoint's address and takes the breakpoint off the list. -/
theorem C21_set_ip (h : BpHost) (id : Nat) (s s' : BpSt) (b : BpObj) (name : String)
    (hn : h.table.instrPointer = some name) (hsub : h.table.subs.lookup name = none)
    (hb : s.objs[id]? = some b) (hi : b.installed = true) (hr : s.running = true)
    (hd : desinstall h id true s = (.ok (), s')) :
    (s'.r.regs name : Int) = b.address % 2 ^ h.table.width name ∧ (∀ n, n ≠ name → s'.r.regs n = s.r.regs n) ∧
    ∀ e ∈ s'.dict, e.1 ≠ b.address := by
  rcases desinstall_cases h id true s b hb hi hr with ⟨e, m1, h2, _⟩ | ⟨e, m1, r1, h2, _⟩ | ⟨m1, r1, h2, h3, h4, _⟩
  · rw [h2] at hd; injection hd with hd _; cases hd
  · rw [h2] at hd; injection hd with hd _; cases hd
  · rw [h2] at hd; injection hd with _ hd; subst hd
    have h5 := h4 rfl
    unfold setInstrPointer at h5
    rw [hn] at h5
    dsimp only at h5
    have h6 := C16_read_after_write h.table h.regKernel name b.address s.r hsub (by rw [h5])
    rw [h5] at h6
    exact ⟨h6.1, h6.2.1, by intro e he; exact ((mem_dictDel e).1 he).2⟩

example : (desinstall exHost 0 true (createBreakpoint exHost 5 none exBp).2).2.r.regs "rip" = 5 := by decide +kernel

end PT.Props
