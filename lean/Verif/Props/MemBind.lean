import Verif.Model.MemBind
import Verif.Spec.MemBind
import Verif.Props.Memory
import Verif.Props.Binding
import Verif.Lemmas.ArgText
import Verif.Lemmas.Wrappers
import Verif.Props.Wrappers
import Verif.Lemmas.Py

/-! C121: memory accesses through the binding. -/

namespace PT
open Spec

/-- The request of an access. -/
def reqOf (pid : Nat) : Access → PtraceReq
  | .peek a => ⟨1, pid, a, 0⟩
  | .poke a w => ⟨4, pid, a, w⟩
  | _ => ⟨0, 0, 0, 0⟩

/-- The number of an error, 0 for success. -/
def errOf : PtraceReply → Nat
  | .error e => e
  | .ok _ => 0

/-- The kernel of `Model/Memory` below which a binding lies. -/
def kernelOf (m : BindEnv) (pid : Nat) (base : List PtraceReq) : Kernel where
  arch := m.arch
  peekErr := fun log a => errOf (m.kernel (log.map (reqOf pid) ++ base) ⟨1, pid, a, 0⟩)
  pokeErr := fun log a => errOf (m.kernel (log.map (reqOf pid) ++ base) ⟨4, pid, a, 0⟩)
  openErr := fun _ => 1
  readReply := fun _ _ _ => .count 0

theorem kernelOf_arch (m : BindEnv) (pid : Nat) (base : List PtraceReq) : (kernelOf m pid base).arch = m.arch := rfl

/-- No old error can be taken for a new one. -/
def Fresh (m : BindEnv) (s : BindSt) : Prop := m.resets = true ∨ s.copy = 0

/-- The two states agree. -/
structure SimSt (m : BindEnv) (pid : Nat) (base : List PtraceReq) (mem0 : Nat → Byte) (ms : MemSt) (bs : BindSt) : Prop where
  calls : bs.calls = ms.log.map (reqOf pid) ++ base
  mem : ms.mem = traceeMem m pid mem0 bs.calls
  fallback : ms.fallback = true

/-- The two runs agree. -/
structure SimOut {α : Type} (m : BindEnv) (pid : Nat) (base : List PtraceReq) (mem0 : Nat → Byte) (r : Except Exc α × MemSt)
    (q : Except Exc α × BindSt) : Prop where
  result : q.1 = r.1
  st : SimSt m pid base mem0 r.2 q.2
  fresh : ∀ x, r.1 = .ok x → Fresh m q.2

section
variable {m : BindEnv} {pid : Nat} {base : List PtraceReq} {mem0 : Nat → Byte} {α β : Type}

theorem SimOut.bind {f : Py MemSt α} {g : Py BindSt α} {f' : α → Py MemSt β} {g' : α → Py BindSt β} {ms : MemSt} {bs : BindSt}
    (h : SimOut m pid base mem0 (f ms) (g bs))
    (h' : ∀ x ms' bs', SimSt m pid base mem0 ms' bs' → Fresh m bs' → f ms = (.ok x, ms') → SimOut m pid base mem0 (f' x ms') (g' x bs')) :
    SimOut m pid base mem0 (Py.bind f f' ms) (Py.bind g g' bs) := by
  obtain ⟨h1, h2, h3⟩ := h
  rcases hf : f ms with ⟨r, ms'⟩
  rcases hg : g bs with ⟨q, bs'⟩
  rw [hf] at h1 h2 h3
  rw [hg] at h1 h2 h3
  simp only at h1 h2 h3
  subst h1
  cases q with
  | error e =>
    rw [Py.run_bind_error hf, Py.run_bind_error hg]
    exact ⟨rfl, h2, fun x hx => by cases hx⟩
  | ok x =>
    rw [Py.run_bind_ok hf, Py.run_bind_ok hg]
    exact h' x ms' bs' h2 (h3 x rfl) hf

theorem SimOut.pure {x : α} {ms : MemSt} {bs : BindSt} (hs : SimSt m pid base mem0 ms bs) (hf : Fresh m bs) :
    SimOut m pid base mem0 (Py.pure x ms) (Py.pure x bs) := ⟨rfl, hs, fun _ _ => hf⟩

theorem SimOut.lift {e : Except Exc α} {ms : MemSt} {bs : BindSt} (hs : SimSt m pid base mem0 ms bs) (hf : Fresh m bs) :
    SimOut m pid base mem0 (liftE e ms) (liftE e bs) := ⟨rfl, hs, fun _ _ => hf⟩

theorem word_int {W v : Nat} (h : v < 2 ^ (8 * W)) : (((v : Nat) : Int) % 2 ^ (8 * W)).toNat = v := by
  have : ((v : Nat) : Int) % 2 ^ (8 * W) = (v : Int) := Int.emod_eq_of_lt (by omega) (by exact_mod_cast h)
  rw [this]
  rfl

theorem ctypes_run (m : BindEnv) (command pid arg1 arg2 : Nat) (h1 : arg1 < 2 ^ (8 * m.arch.W)) (h2 : arg2 < 2 ^ (8 * m.arch.W)) (check : Bool)
    (s : BindSt) : ptrace m false command pid (arg1 : Int) (arg2 : Int) check s =
      (let r := libcPtrace m ⟨command, pid, arg1, arg2⟩ { s with errno := s.copy, copy := s.errno }
       if r.1 = m.minusOne ∧ (check = false ∨ r.2.errno ≠ 0) then
         (.error (.ptrace (some r.2.errno)), { r.2 with errno := r.2.copy, copy := r.2.errno })
       else (.ok r.1, { r.2 with errno := r.2.copy, copy := r.2.errno })) := by
  unfold ptrace ctypesPtrace
  simp only [word_int h1, word_int h2, Bool.false_eq_true, if_false]

theorem minusOne_ne {m : BindEnv} {v : Nat} (h : v + 1 < 2 ^ (8 * m.arch.W)) : v ≠ m.minusOne := by
  unfold BindEnv.minusOne
  omega

theorem bindReadWord_sim (hh : Honest m pid mem0) {address : Nat} (hb : address < 2 ^ (8 * m.arch.W)) {ms : MemSt} {bs : BindSt}
    (hs : SimSt m pid base mem0 ms bs) (hf : Fresh m bs) :
    SimOut m pid base mem0 (readWord (kernelOf m pid base) address ms) (bindReadWord m false pid address bs) := by
  unfold bindReadWord peekWord
  by_cases ha : address % m.arch.W = 0
  · rw [if_neg (by simpa using ha)]
    have hrun := ctypes_run m 1 pid address 0 hb (Nat.two_pow_pos _) true bs
    have hpe : (kernelOf m pid base).peekErr ms.log address = errOf (m.kernel bs.calls ⟨1, pid, address, 0⟩) := by
      rw [hs.calls]; rfl
    have hma : traceeMem m pid mem0 (⟨1, pid, address, 0⟩ :: bs.calls) = traceeMem m pid mem0 bs.calls := by
      funext x
      simp [traceeMem]
    have hst : ∀ e c, SimSt m pid base mem0 { ms with log := .peek address :: ms.log } ⟨e, c, ⟨1, pid, address, 0⟩ :: bs.calls⟩ := fun e c =>
      ⟨by show _ :: bs.calls = _; rw [hs.calls]; rfl, by show ms.mem = traceeMem m pid mem0 (_ :: bs.calls); rw [hma]; exact hs.mem, hs.fallback⟩
    cases hk : m.kernel bs.calls ⟨1, pid, address, 0⟩ with
    | error e =>
      have he : e ≠ 0 := hh.error _ _ _ hk
      rw [hk] at hpe
      rw [readWord_err _ _ _ ha (by rw [hpe]; exact he), hpe]
      have hl : libcPtrace m ⟨1, pid, address, 0⟩ { bs with errno := bs.copy, copy := bs.errno } =
          (m.minusOne, ⟨e, bs.errno, ⟨1, pid, address, 0⟩ :: bs.calls⟩) := by
        unfold libcPtrace; rw [show m.kernel _ _ = _ from hk]
      rw [show ptrace m false 1 pid (address : Int) 0 true bs = _ from hrun, hl]
      simp only []
      rw [if_pos ⟨trivial, Or.inr he⟩]
      exact ⟨rfl, hst _ _, fun x hx => by cases hx⟩
    | ok v =>
      rw [hk] at hpe
      rw [readWord_ok _ _ _ ha hpe]
      have hl : libcPtrace m ⟨1, pid, address, 0⟩ { bs with errno := bs.copy, copy := bs.errno } =
          (v, ⟨if m.resets then 0 else bs.copy, bs.errno, ⟨1, pid, address, 0⟩ :: bs.calls⟩) := by
        unfold libcPtrace; rw [show m.kernel _ _ = _ from hk]; rfl
      have h0 : (if m.resets then 0 else bs.copy) = 0 := by
        rcases hf with h | h
        · rw [if_pos h]
        · split
          · rfl
          · exact h
      rw [show ptrace m false 1 pid (address : Int) 0 true bs = _ from hrun, hl]
      simp only [h0]
      rw [if_neg (by rintro ⟨-, h | h⟩ <;> exact absurd h (by decide))]
      refine ⟨?_, hst _ _, fun _ _ => Or.inr rfl⟩
      show Except.ok v = Except.ok _
      congr 1
      have hv := hh.peek _ _ _ ha hk
      rw [← hs.mem] at hv
      exact isUint_unique hv (isUint_native ((isRange_iff _ _ _ _).2 rfl))
  · rw [if_pos ha]
    unfold readWord
    rw [if_pos (show address % (kernelOf m pid base).arch.W ≠ 0 from ha)]
    exact ⟨rfl, hs, fun x hx => by cases hx⟩

theorem storeBytes_wordBytes (a : Arch) (mem : Nat → Byte) (address w x : Nat) :
    storeBytes mem address (wordBytes a w) x =
      if address ≤ x ∧ x < address + a.W then Fin.ofNat 256 (byteAt a.big a.W w (x - address)) else mem x := by
  have hlen : ∀ w, (leBytes a.W w).length = a.W := fun w => by simp
  unfold storeBytes
  by_cases h : address ≤ x ∧ x < address + a.W
  · rw [if_pos h, if_pos h.1]
    have hlt : x - address < a.W := by omega
    have hget : (wordBytes a w)[x - address]? = some (Fin.ofNat 256 (byteAt a.big a.W w (x - address))) := by
      unfold wordBytes byteAt
      cases a.big with
      | false =>
        simp only [Bool.false_eq_true, if_false]
        rw [List.getElem?_eq_getElem (by rw [hlen]; exact hlt)]
        congr 1
        apply Fin.ext
        rw [leBytes_getElem]
        show _ = _ % 256
        rw [Nat.mod_mod]
      | true =>
        simp only [if_true]
        rw [List.getElem?_eq_getElem (by rw [List.length_reverse, hlen]; exact hlt), List.getElem_reverse]
        congr 1
        apply Fin.ext
        rw [leBytes_getElem]
        simp only [hlen]
        show _ = _ % 256
        rw [Nat.mod_mod]
    rw [hget]
  · rw [if_neg h]
    by_cases h1 : address ≤ x
    · rw [if_pos h1]
      have : (wordBytes a w)[x - address]? = none := by
        rw [List.getElem?_eq_none_iff, wordBytes_length]
        omega
      rw [this]
    · rw [if_neg h1]

theorem bindWriteWord_sim (hh : Honest m pid mem0) {address word : Nat} (hb : address < 2 ^ (8 * m.arch.W)) (hw : word < 2 ^ (8 * m.arch.W))
    {ms : MemSt} {bs : BindSt} (hs : SimSt m pid base mem0 ms bs) (hf : Fresh m bs) :
    SimOut m pid base mem0 (writeWord (kernelOf m pid base) address word ms) (bindWriteWord m false pid address word bs) := by
  unfold bindWriteWord pokeWord writeWord
  by_cases ha : address % m.arch.W = 0
  · rw [if_neg (show ¬ address % (kernelOf m pid base).arch.W ≠ 0 from fun h => h ha), if_neg (show ¬ address % m.arch.W ≠ 0 from fun h => h ha)]
    have hrun := ctypes_run m 4 pid address word hb hw false bs
    have hpe : (kernelOf m pid base).pokeErr ms.log address = errOf (m.kernel bs.calls ⟨4, pid, address, 0⟩) := by
      rw [hs.calls]; rfl
    simp only [hpe]
    cases hk : m.kernel bs.calls ⟨4, pid, address, word⟩ with
    | error e =>
      have he : e ≠ 0 := hh.error _ _ _ hk
      have hk0 := hh.poke _ _ _ 0 _ hk
      have hl : libcPtrace m ⟨4, pid, address, word⟩ { bs with errno := bs.copy, copy := bs.errno } =
          (m.minusOne, ⟨e, bs.errno, ⟨4, pid, address, word⟩ :: bs.calls⟩) := by
        unfold libcPtrace; rw [show m.kernel _ _ = _ from hk]
      have hp : ptrace m false 4 pid (address : Int) (word : Int) false bs = (.error (.ptrace (some e)), ⟨bs.errno, e, ⟨4, pid, address, word⟩ :: bs.calls⟩) := by
        rw [hrun, hl]
        simp
      rw [Py.run_bind_error hp, hk0]
      show SimOut m pid base mem0 (if e ≠ 0 then _ else _) _
      rw [if_pos he]
      refine ⟨rfl, ⟨?_, ?_, hs.fallback⟩, fun x hx => by cases hx⟩
      · show _ :: bs.calls = _
        rw [hs.calls]; rfl
      · show ms.mem = traceeMem m pid mem0 (_ :: bs.calls)
        funext x
        refine Eq.trans ?_ (if_neg (by rintro ⟨-, -, h, -⟩; rw [hk] at h; cases h)).symm
        rw [hs.mem]
    | ok v =>
      have hk0 : errOf (m.kernel bs.calls ⟨4, pid, address, 0⟩) = 0 := by
        cases hk0 : m.kernel bs.calls ⟨4, pid, address, 0⟩ with
        | ok v => rfl
        | error e =>
          have := hh.poke _ _ _ word _ hk0
          rw [hk] at this
          cases this
      have hl : libcPtrace m ⟨4, pid, address, word⟩ { bs with errno := bs.copy, copy := bs.errno } =
          (v, ⟨bs.copy, bs.errno, ⟨4, pid, address, word⟩ :: bs.calls⟩) := by
        unfold libcPtrace; rw [show m.kernel _ _ = _ from hk]; rfl
      have hp : ptrace m false 4 pid (address : Int) (word : Int) false bs = (.ok v, ⟨bs.errno, bs.copy, ⟨4, pid, address, word⟩ :: bs.calls⟩) := by
        rw [hrun, hl]
        simp only []
        rw [if_neg (fun h => minusOne_ne (hh.value _ _ _ _ hk) h.1)]
      rw [Py.run_bind_ok hp, if_neg (by rw [hk0]; decide)]
      refine ⟨rfl, ⟨?_, ?_, hs.fallback⟩, fun _ _ => hf⟩
      · show _ :: bs.calls = _
        rw [hs.calls]; rfl
      · show storeBytes ms.mem address (wordBytes m.arch word) = traceeMem m pid mem0 (_ :: bs.calls)
        funext x
        rw [storeBytes_wordBytes, hs.mem]
        by_cases hx : address ≤ x ∧ x < address + m.arch.W
        · rw [if_pos hx]
          exact (if_pos ⟨rfl, rfl, by rw [hk]; rfl, hx⟩).symm
        · rw [if_neg hx]
          exact (if_neg (fun h => hx h.2.2.2)).symm
  · rw [if_pos (show address % (kernelOf m pid base).arch.W ≠ 0 from ha), if_pos (show address % m.arch.W ≠ 0 from ha)]
    exact ⟨rfl, hs, fun x hx => by cases hx⟩

theorem bindReadWords_sim (hh : Honest m pid mem0) : ∀ (size address : Nat) (data : Bytes) (ms : MemSt) (bs : BindSt),
    SimSt m pid base mem0 ms bs → Fresh m bs → address + size ≤ 2 ^ (8 * m.arch.W) →
    SimOut m pid base mem0 (readWords (kernelOf m pid base) address size data ms) (bindReadWords m false pid address size data bs) := by
  intro size
  induction size using Nat.strongRecOn with
  | _ size ih =>
  intro address data ms bs hs hf hb
  rw [readWords.eq_def, bindReadWords.eq_def]
  by_cases h0 : size = 0
  · rw [dif_pos h0, dif_pos h0]
    exact .pure hs hf
  · rw [dif_neg h0, dif_neg h0]
    refine .bind (bindReadWord_sim hh (by omega) hs hf) fun word ms' bs' hs' hf' _ => ?_
    refine .bind (.lift hs' hf') fun bytes ms'' bs'' hs'' hf'' _ => ?_
    by_cases hW : size < m.arch.W
    · rw [if_pos (show size < (kernelOf m pid base).arch.W from hW), if_pos hW]
      exact .pure hs'' hf''
    · rw [if_neg (show ¬ size < (kernelOf m pid base).arch.W from hW), if_neg hW]
      have hWp := W_pos m.arch
      exact ih (size - m.arch.W) (by omega) _ _ _ _ hs'' hf'' (by show address + m.arch.W + (size - m.arch.W) ≤ _; omega)

theorem aligned_lt {a b W : Nat} (ha : a % W ≠ 0) (hb : a ≤ b) (hbW : b % W = 0) : a - a % W + W ≤ b := by
  have hWp : 0 < W := by
    rcases Nat.eq_zero_or_pos W with h | h
    · subst h
      rw [Nat.mod_zero] at hbW ha
      omega
    · exact h
  have h1 := Nat.div_add_mod a W
  have h2 := Nat.div_add_mod b W
  have h3 : a / W < b / W := by
    by_contra hc
    have : b / W = a / W := Nat.le_antisymm (by omega) (Nat.div_le_div_right hb)
    rw [this] at h2
    omega
  have h4 : W * (a / W + 1) ≤ W * (b / W) := Nat.mul_le_mul_left _ h3
  rw [Nat.mul_succ] at h4
  omega

theorem aligned_step {a b W : Nat} (ha : a % W = 0) (hb : b % W = 0) (h : a < b) : a + W ≤ b := by
  obtain ⟨i, rfl⟩ := Nat.dvd_of_mod_eq_zero ha
  obtain ⟨j, rfl⟩ := Nat.dvd_of_mod_eq_zero hb
  have hij : i < j := Nat.lt_of_mul_lt_mul_left h
  have := Nat.mul_le_mul_left W hij
  rw [Nat.mul_succ] at this
  exact this

theorem top_aligned (a : Arch) : 2 ^ (8 * a.W) % a.W = 0 := by
  rcases (by unfold Arch.W; split <;> simp : a.W = 4 ∨ a.W = 8) with h | h <;> rw [h] <;> decide

theorem bindReadBytes_sim (hh : Honest m pid mem0) (size address : Nat) (ms : MemSt) (bs : BindSt)
    (hs : SimSt m pid base mem0 ms bs) (hf : Fresh m bs) (hb : address + size ≤ 2 ^ (8 * m.arch.W)) :
    SimOut m pid base mem0 (readBytesPeek (kernelOf m pid base) address size ms) (bindReadBytes m false pid address size bs) := by
  unfold readBytesPeek bindReadBytes
  have hWp := W_pos m.arch
  have hlt := Nat.mod_lt address hWp
  have hle := Nat.mod_le address m.arch.W
  by_cases h0 : address % m.arch.W ≠ 0
  · rw [if_pos (show address % (kernelOf m pid base).arch.W ≠ 0 from h0), if_pos h0]
    have hal := aligned_lt h0 (show address ≤ 2 ^ (8 * m.arch.W) by omega) (top_aligned m.arch)
    refine .bind (bindReadWord_sim hh (by omega) hs hf) fun word ms' bs' hs' hf' _ => ?_
    refine .bind (.lift hs' hf') fun bytes ms'' bs'' hs'' hf'' _ => ?_
    refine bindReadWords_sim hh _ _ _ _ _ hs'' hf'' ?_
    show address - address % m.arch.W + m.arch.W + (size - min (m.arch.W - address % m.arch.W) size) ≤ _
    omega
  · rw [if_neg (show ¬ address % (kernelOf m pid base).arch.W ≠ 0 from h0), if_neg h0]
    exact bindReadWords_sim hh _ _ _ _ _ hs hf hb

theorem bytes2word_lt {a : Arch} {b : Bytes} {w : Nat} (h : bytes2word a b = .ok w) : w < 2 ^ (8 * a.W) := by
  unfold bytes2word unpackUint at h
  split at h
  · rename_i hl
    injection h with h
    rw [← h, ← pow_256, ← hl]
    have := readNativeUint_lt a b
    unfold readNativeUint at this
    exact this
  · cases h

theorem readBytes_fallback (k : Kernel) (address size : Nat) (ms : MemSt) (h : ms.fallback = true) :
    readBytes k address size ms = readBytesPeek k address size ms := by
  unfold readBytes
  rw [if_pos h]

theorem bindWriteWords_sim (hh : Honest m pid mem0) : ∀ (n : Nat) (bytes : Bytes) (address : Nat) (ms : MemSt) (bs : BindSt), bytes.length = n →
    SimSt m pid base mem0 ms bs → Fresh m bs → address % m.arch.W = 0 → address + bytes.length ≤ 2 ^ (8 * m.arch.W) →
    SimOut m pid base mem0 (writeWords (kernelOf m pid base) address bytes ms) (bindWriteWords m false pid address bytes bs) := by
  intro n
  induction n using Nat.strongRecOn with
  | _ n ih =>
  intro bytes address ms bs hn hs hf ha hb
  have hWp := W_pos m.arch
  rw [writeWords.eq_def, bindWriteWords.eq_def]
  by_cases hW : m.arch.W ≤ bytes.length
  · rw [dif_pos (show (kernelOf m pid base).arch.W ≤ bytes.length from hW), dif_pos hW]
    refine .bind (f := liftE (bytes2word m.arch (bytes.take m.arch.W))) (.lift hs hf) fun word ms' bs' hs' hf' hw => ?_
    have hw : bytes2word m.arch (bytes.take m.arch.W) = .ok word := congrArg Prod.fst hw
    refine .bind (bindWriteWord_sim hh (by omega) (bytes2word_lt hw) hs' hf') fun _ ms'' bs'' hs'' hf'' _ => ?_
    exact ih (bytes.drop m.arch.W).length (by rw [List.length_drop]; omega) _ _ _ _ rfl hs'' hf''
      (by show (address + m.arch.W) % m.arch.W = 0; rw [Nat.add_mod_right]; exact ha) (by
        show address + m.arch.W + (bytes.drop m.arch.W).length ≤ _
        rw [List.length_drop]; omega)
  · rw [dif_neg (show ¬ (kernelOf m pid base).arch.W ≤ bytes.length from hW), dif_neg hW]
    by_cases he : bytes = []
    · rw [if_pos he, if_pos he]
      exact .pure hs hf
    · rw [if_neg he, if_neg he]
      have hl : 0 < bytes.length := List.length_pos_iff.2 he
      have hnext : address + m.arch.W ≤ 2 ^ (8 * m.arch.W) := by
        have h1 := Nat.div_add_mod address m.arch.W
        have h2 := Nat.div_add_mod (2 ^ (8 * m.arch.W)) m.arch.W
        rw [top_aligned] at h2
        have h3 : address / m.arch.W < 2 ^ (8 * m.arch.W) / m.arch.W := by
          by_contra hc
          have := Nat.mul_le_mul_left m.arch.W (Nat.not_lt.1 hc)
          omega
        have h4 := Nat.mul_le_mul_left m.arch.W h3
        rw [Nat.mul_succ] at h4
        omega
      have hr := bindReadBytes_sim hh m.arch.W address ms bs hs hf hnext
      rw [← readBytes_fallback _ _ _ _ hs.fallback] at hr
      refine .bind hr fun word ms' bs' hs' hf' _ => ?_
      refine .bind (f := liftE (bytes2word m.arch (bytes ++ word.drop bytes.length))) (.lift hs' hf') fun w ms'' bs'' hs'' hf'' hw => ?_
      exact bindWriteWord_sim hh (by omega) (bytes2word_lt (congrArg Prod.fst hw)) hs'' hf''

theorem bindWriteBytes_sim (hh : Honest m pid mem0) (bytes : Bytes) (address : Nat) (ms : MemSt) (bs : BindSt)
    (hs : SimSt m pid base mem0 ms bs) (hf : Fresh m bs) (hb : address + bytes.length ≤ 2 ^ (8 * m.arch.W)) :
    SimOut m pid base mem0 (writeBytes (kernelOf m pid base) address bytes ms) (bindWriteBytes m false pid address bytes bs) := by
  have hWp := W_pos m.arch
  have hlt := Nat.mod_lt address hWp
  have hle := Nat.mod_le address m.arch.W
  unfold writeBytes bindWriteBytes
  by_cases h0 : address % m.arch.W ≠ 0
  · rw [if_pos (show address % (kernelOf m pid base).arch.W ≠ 0 from h0), if_pos h0]
    have hal := aligned_lt h0 (show address ≤ 2 ^ (8 * m.arch.W) by omega) (top_aligned m.arch)
    have hmod : (address - address % m.arch.W) % m.arch.W = 0 := Nat.mod_eq_zero_of_dvd (Nat.dvd_sub_mod address)
    have hr := bindReadBytes_sim hh m.arch.W (address - address % m.arch.W) ms bs hs hf hal
    rw [← readBytes_fallback _ _ _ _ hs.fallback] at hr
    refine .bind hr fun word ms' bs' hs' hf' _ => ?_
    show SimOut m pid base mem0 _ _
    generalize hsw : (if bytes.length < m.arch.W - address % m.arch.W then
        (bytes.length, word.take (address % m.arch.W) ++ bytes.take bytes.length ++ word.drop (address % m.arch.W + bytes.length))
      else (m.arch.W - address % m.arch.W, word.take (address % m.arch.W) ++ bytes.take (m.arch.W - address % m.arch.W))) = sw
    obtain ⟨size, word'⟩ := sw
    have hsz : size = min bytes.length (m.arch.W - address % m.arch.W) := by
      split at hsw
      · injection hsw with h1 h2; omega
      · injection hsw with h1 h2; omega
    have e1 : (kernelOf m pid base).arch = m.arch := rfl
    simp only [e1, hsw]
    refine .bind (f := liftE (bytes2word m.arch word')) (.lift hs' hf') fun w ms'' bs'' hs'' hf'' hw => ?_
    refine .bind (bindWriteWord_sim hh (by omega) (bytes2word_lt (congrArg Prod.fst hw)) hs'' hf'') fun _ ms3 bs3 hs3 hf3 _ => ?_
    exact bindWriteWords_sim hh _ _ _ _ _ rfl hs3 hf3 (by rw [Nat.add_mod_right]; exact hmod) (by rw [List.length_drop]; omega)
  · rw [if_neg (show ¬ address % (kernelOf m pid base).arch.W ≠ 0 from h0), if_neg h0]
    exact bindWriteWords_sim hh _ _ _ _ _ rfl hs hf (by simpa using h0) hb

end

/-- The state of `Model/Memory` at the beginning. -/
def startOf (m : BindEnv) (pid : Nat) (mem0 : Nat → Byte) (s : BindSt) : MemSt := { mem := traceeMem m pid mem0 s.calls, fallback := true }

theorem startOf_sim (m : BindEnv) (pid : Nat) (mem0 : Nat → Byte) (s : BindSt) : SimSt m pid s.calls mem0 (startOf m pid mem0 s) s :=
  ⟨rfl, rfl, rfl⟩

/-- **C121 (partial)** Reading through ctypes with a C library that resets `errno`, or while no request has failed: the bytes of the process, or the
error of an aligned word that touches the range. -/
theorem C121_read_partial (m : BindEnv) (pid : Nat) (mem0 : Nat → Byte) (hh : Honest m pid mem0) (address size : Nat) (hn : 0 < size)
    (hb : address + size ≤ 2 ^ (8 * m.arch.W)) (s : BindSt) (hf : m.resets = true ∨ s.copy = 0) :
    (∀ d, (bindReadBytes m false pid address size s).1 = .ok d → IsRange (traceeMem m pid mem0 s.calls) address size d) ∧
    (∀ e, (bindReadBytes m false pid address size s).1 = .error e → ∃ before w en, w % m.arch.W = 0 ∧ w < address + size ∧ address < w + m.arch.W ∧
      m.kernel before ⟨1, pid, w, 0⟩ = .error en ∧ e = .ptrace (some en)) ∧
    ((∀ before w, w % m.arch.W = 0 → w < address + size → address < w + m.arch.W → ∃ v, m.kernel before ⟨1, pid, w, 0⟩ = .ok v) →
      ∃ d, (bindReadBytes m false pid address size s).1 = .ok d) ∧
    traceeMem m pid mem0 (bindReadBytes m false pid address size s).2.calls = traceeMem m pid mem0 s.calls := by
  obtain ⟨h1, h2, h3⟩ := bindReadBytes_sim hh size address _ _ (startOf_sim m pid mem0 s) hf hb
  refine ⟨fun d hd => ?_, fun e he => ?_, fun hall => ?_, ?_⟩
  · rw [h1] at hd
    exact Props.C05_exact _ _ _ _ _ hd
  · rw [h1] at he
    obtain ⟨log, w, e1, e2, e3, e4, e5⟩ := Props.C05_raises _ _ _ _ _ hn he
    have hpe : (kernelOf m pid s.calls).peekErr log w = errOf (m.kernel (log.map (reqOf pid) ++ s.calls) ⟨1, pid, w, 0⟩) := rfl
    cases hk : m.kernel (log.map (reqOf pid) ++ s.calls) ⟨1, pid, w, 0⟩ with
    | ok v => rw [hpe, hk] at e4; exact absurd rfl e4
    | error en =>
      rw [hpe, hk] at e5
      exact ⟨_, w, en, e1, e2, e3, hk, e5⟩
  · obtain ⟨d, hd⟩ := Props.C05_succeeds (kernelOf m pid s.calls) address size (startOf m pid mem0 s) hn (fun log w e1 e2 e3 => by
      obtain ⟨v, hv⟩ := hall (log.map (reqOf pid) ++ s.calls) w e1 e2 e3
      show errOf _ = 0
      rw [hv]
      rfl)
    exact ⟨d, by rw [h1]; exact hd⟩
  · rw [← h2.mem]
    exact (Props.C05_reads_only _ _ _ _).1

/-- **C121 (partial)** Writing likewise: the memory of the process afterwards has the bytes in place and nothing else changed; after an error a
beginning of them. -/
theorem C121_write_partial (m : BindEnv) (pid : Nat) (mem0 : Nat → Byte) (hh : Honest m pid mem0) (address : Nat) (d : Bytes)
    (hb : address + d.length ≤ 2 ^ (8 * m.arch.W)) (s : BindSt) (hf : m.resets = true ∨ s.copy = 0) :
    ∃ j, j ≤ d.length ∧ Written (traceeMem m pid mem0 s.calls) address (d.take j)
        (traceeMem m pid mem0 (bindWriteBytes m false pid address d s).2.calls) ∧
      ((bindWriteBytes m false pid address d s).1 = .ok () → j = d.length) ∧
      (∀ e, (bindWriteBytes m false pid address d s).1 = .error e → (∃ n, e = .ptrace n) ∧ (d ≠ [] → j < d.length)) := by
  obtain ⟨h1, h2, h3⟩ := bindWriteBytes_sim hh d address _ _ (startOf_sim m pid mem0 s) hf hb
  obtain ⟨j, e1, e2, e3, e4⟩ := Props.C08_prefix (kernelOf m pid s.calls) address d (startOf m pid mem0 s)
  refine ⟨j, e1, ?_, fun h => e3 (by rw [← h1]; exact h), fun e he => ?_⟩
  · rw [← h2.mem]
    exact e2
  · rw [h1] at he
    refine ⟨?_, e4 e he⟩
    rcases Props.C08_exceptions _ _ _ _ _ he with h | ⟨-, h⟩
    · exact h
    · cases h

/-- Running one peek of a musl system. -/
theorem stale_peek {m : BindEnv} {pid : Nat} {mem0 : Nat → Byte} (hh : Honest m pid mem0) (hm : m.resets = false) {s t : BindSt} (hc : s.copy ≠ 0)
    {address v : Nat} (hb : address < 2 ^ (8 * m.arch.W)) (ha : address % m.arch.W = 0) (h : bindReadWord m false pid address s = (.ok v, t)) :
    t.copy = s.copy ∧ traceeMem m pid mem0 t.calls = traceeMem m pid mem0 s.calls ∧
      ¬ IsUint m.arch.big (traceeMem m pid mem0 s.calls) address m.arch.W (2 ^ (8 * m.arch.W) - 1) := by
  unfold bindReadWord peekWord at h
  rw [if_neg (fun hh => hh ha)] at h
  have hrun := ctypes_run m 1 pid address 0 hb (Nat.two_pow_pos _) true s
  rw [show ptrace m false 1 pid (address : Int) 0 true s = _ from hrun] at h
  have hma : traceeMem m pid mem0 (⟨1, pid, address, 0⟩ :: s.calls) = traceeMem m pid mem0 s.calls := by
    funext x
    simp [traceeMem]
  cases hk : m.kernel s.calls ⟨1, pid, address, 0⟩ with
  | error e =>
    have he : e ≠ 0 := hh.error _ _ _ hk
    have hl : libcPtrace m ⟨1, pid, address, 0⟩ { s with errno := s.copy, copy := s.errno } =
        (m.minusOne, ⟨e, s.errno, ⟨1, pid, address, 0⟩ :: s.calls⟩) := by
      unfold libcPtrace; rw [show m.kernel _ _ = _ from hk]
    rw [hl] at h
    simp only [] at h
    rw [if_pos ⟨trivial, Or.inr he⟩] at h
    cases h
  | ok u =>
    have hl : libcPtrace m ⟨1, pid, address, 0⟩ { s with errno := s.copy, copy := s.errno } =
        (u, ⟨s.copy, s.errno, ⟨1, pid, address, 0⟩ :: s.calls⟩) := by
      unfold libcPtrace; rw [show m.kernel _ _ = _ from hk, hm]; rfl
    rw [hl] at h
    simp only [] at h
    by_cases hu : u = m.minusOne
    · rw [if_pos ⟨hu, Or.inr hc⟩] at h
      cases h
    · rw [if_neg (fun hh => hu hh.1)] at h
      injection h with h1 h2
      subst h2
      refine ⟨rfl, hma, fun hw => hu ?_⟩
      exact isUint_unique (hh.peek _ _ _ ha hk) hw

theorem stale_words {m : BindEnv} {pid : Nat} {mem0 : Nat → Byte} (hh : Honest m pid mem0) (hm : m.resets = false) : ∀ (size address : Nat)
    (data : Bytes) (s t : BindSt) (d : Bytes), s.copy ≠ 0 → address % m.arch.W = 0 → address + size ≤ 2 ^ (8 * m.arch.W) →
    bindReadWords m false pid address size data s = (.ok d, t) → ∀ w, w % m.arch.W = 0 → address ≤ w → w < address + size →
      ¬ IsUint m.arch.big (traceeMem m pid mem0 s.calls) w m.arch.W (2 ^ (8 * m.arch.W) - 1) := by
  intro size
  induction size using Nat.strongRecOn with
  | _ size ih =>
  intro address data s t d hc ha hb h w hw h1 h2
  have hWp := W_pos m.arch
  rw [bindReadWords.eq_def, dif_neg (by omega)] at h
  obtain ⟨v, u, hr, h'⟩ := Py.ok_of_bind h
  obtain ⟨bs, u', hl, h3⟩ := Py.ok_of_bind h'
  have hu : u' = u := (congrArg Prod.snd hl).symm
  rw [hu] at h3
  obtain ⟨e1, e2, e3⟩ := stale_peek hh hm hc (by omega) ha hr
  by_cases hwa : w = address
  · rw [hwa]; exact e3
  · have hge : address + m.arch.W ≤ w := by
      have := aligned_step ha hw (by omega)
      omega
    rw [if_neg (by omega)] at h3
    rw [← e2]
    exact ih (size - m.arch.W) (by omega) _ _ _ _ _ (by rw [e1]; exact hc) (by rw [Nat.add_mod_right]; exact ha) (by omega) h3 w hw hge (by omega)

/-- **C121 (refuted)** With a C library that leaves `errno` alone (musl), after any request has failed, memory that contains an aligned word of ones
cannot be read any more, although the kernel grants everything. -/
theorem C121_stale_refuted (m : BindEnv) (hm : m.resets = false) (pid : Nat) (mem0 : Nat → Byte) (hh : Honest m pid mem0) (address size : Nat)
    (hb : address + size ≤ 2 ^ (8 * m.arch.W)) (s : BindSt) (hc : s.copy ≠ 0) (w : Nat) (hw : w % m.arch.W = 0) (h1 : address ≤ w)
    (h2 : w < address + size) (hones : IsUint m.arch.big (traceeMem m pid mem0 s.calls) w m.arch.W (2 ^ (8 * m.arch.W) - 1)) (d : Bytes) :
    (bindReadBytes m false pid address size s).1 ≠ .ok d := by
  intro h
  have hWp := W_pos m.arch
  rcases hr : bindReadBytes m false pid address size s with ⟨r, t⟩
  rw [hr] at h
  simp only at h
  subst h
  unfold bindReadBytes at hr
  simp only [] at hr
  by_cases h0 : address % m.arch.W ≠ 0
  · rw [if_pos h0] at hr
    have hle := Nat.mod_le address m.arch.W
    have hlt := Nat.mod_lt address hWp
    have hal := aligned_lt h0 h1 hw
    have hmod : (address - address % m.arch.W) % m.arch.W = 0 := Nat.mod_eq_zero_of_dvd (Nat.dvd_sub_mod address)
    obtain ⟨v, u, hw1, hr'⟩ := Py.ok_of_bind hr
    obtain ⟨bs, u', hl, h3⟩ := Py.ok_of_bind hr'
    have hu : u' = u := (congrArg Prod.snd hl).symm
    rw [hu] at h3
    obtain ⟨e1, e2, -⟩ := stale_peek hh hm hc (by omega) hmod hw1
    exact stale_words hh hm _ _ _ _ _ _ (by rw [e1]; exact hc) (by rw [Nat.add_mod_right]; exact hmod) (by omega) h3 w hw hal (by omega) (by rw [e2]; exact hones)
  · rw [if_neg h0] at hr
    exact stale_words hh hm _ _ _ _ _ _ hc (by simpa using h0) hb hr w hw h1 h2 hones

/-- **C121 (refuted)** With the C extension no word with its highest bit set can be written: no request is made. -/
theorem C121_cptrace_refuted (m : BindEnv) (pid address : Nat) (ha : address % m.arch.W = 0) (d : Bytes) (hd : m.arch.W ≤ d.length) (w : Nat)
    (hw : bytes2word m.arch (d.take m.arch.W) = .ok w) (h63 : 2 ^ 63 ≤ w) (s : BindSt) :
    bindWriteBytes m true pid address d s = (.error .overflow, { s with copy := 0 }) := by
  unfold bindWriteBytes
  simp only []
  rw [if_neg (fun h => h ha), bindWriteWords.eq_def, dif_pos hd]
  rw [Py.run_bind_ok (m := liftE (bytes2word m.arch (d.take m.arch.W))) (show _ = (Except.ok w, s) by unfold liftE; rw [hw])]
  apply Py.run_bind_error
  unfold bindWriteWord pokeWord
  rw [if_neg (fun h => h ha)]
  apply Py.run_bind_error
  have hp : cptracePtrace m 4 pid (address : Int) (w : Int) false { s with copy := 0 } = (.error .overflow, { s with copy := 0 }) := by
    unfold cptracePtrace
    rw [if_pos (by rintro ⟨-, -, -, h⟩; exact absurd (show w < 2 ^ 63 by exact_mod_cast h) (by omega))]
  unfold ptrace
  rw [if_pos rfl, hp]

/-- **C121 (refuted)** An address beyond the last word is not refused: ctypes cuts it, and another word is read. -/
theorem C121_wrap_refuted (m : BindEnv) (pid : Nat) (address : Nat) (h0 : address % m.arch.W = 0) (s : BindSt) :
    bindReadWord m false pid (2 ^ (8 * m.arch.W) + address) s = bindReadWord m false pid address s := by
  unfold bindReadWord peekWord
  have hmod : (2 ^ (8 * m.arch.W) + address) % m.arch.W = 0 := by rw [Nat.add_mod, top_aligned, h0]; simp
  rw [if_neg (fun h => h hmod), if_neg (fun h => h h0)]
  have : (((2 ^ (8 * m.arch.W) + address : Nat) : Int) % 2 ^ (8 * m.arch.W)) = (address : Int) % 2 ^ (8 * m.arch.W) := by
    push_cast
    rw [Int.add_emod_left]
  unfold ptrace ctypesPtrace
  simp only [this, Bool.false_eq_true, if_false]

/-- Memory after requests that are all granted. -/
def exFold (a : Arch) (pid : Nat) (mem : Nat → Byte) : List PtraceReq → (Nat → Byte)
  | [] => mem
  | req :: before => fun x =>
    if req.command = 4 ∧ req.pid = pid ∧ req.arg1 ≤ x ∧ x < req.arg1 + a.W then Fin.ofNat 256 (byteAt a.big a.W req.arg2 (x - req.arg1))
    else exFold a pid mem before x

/-- A machine that grants everything. -/
def exTracee (a : Arch) (resets : Bool) (pid : Nat) (mem : Nat → Byte) : BindEnv where
  arch := a
  resets := resets
  kernel := fun before req => if req.command = 1 then .ok (readUint a.big (exFold a pid mem before) req.arg1 a.W) else .ok 0

theorem exTracee_mem (a : Arch) (resets : Bool) (pid : Nat) (mem : Nat → Byte) (calls : List PtraceReq) :
    traceeMem (exTracee a resets pid mem) pid mem calls = exFold a pid mem calls := by
  have hg : ∀ before req, Granted ((exTracee a resets pid mem).kernel before req) = true := by
    intro before req
    unfold exTracee
    simp only []
    split <;> rfl
  induction calls with
  | nil => rfl
  | cons req before ih =>
    funext x
    simp only [traceeMem, exFold, hg, true_and, ih]
    rfl

theorem exTracee_honest (a : Arch) (resets : Bool) (pid : Nat) (mem : Nat → Byte) : Honest (exTracee a resets pid mem) pid mem where
  peek := by
    intro before address v _ h
    have : v = readUint a.big (exFold a pid mem before) address a.W := by
      simp only [exTracee, if_true] at h
      injection h with h
      exact h.symm
    rw [this, exTracee_mem]
    exact isUint_readUint _ _ _ _
  error := by
    intro before req e h
    unfold exTracee at h
    simp only [] at h
    split at h <;> cases h
  poke := by
    intro before address w w' e h
    unfold exTracee at h
    simp only [] at h
    split at h <;> cases h
  value := by
    intro before address w v h
    have hv : (0 : Nat) = v := by
      unfold exTracee at h
      simp only [] at h
      rw [if_neg (by decide)] at h
      injection h
    rw [← hv]
    show 0 + 1 < 2 ^ (8 * a.W)
    rcases W_two a with h | h <;> rw [h] <;> decide

example := C121_write_partial (exTracee ⟨true, false⟩ true 42 (fun _ => 0)) 42 _ (exTracee_honest _ _ _ _) 4097 [1, 2, 3] (by decide) ⟨0, 3, []⟩ (.inl rfl)

/-- The hypotheses of the theorems, glibc: reading all ones after an error. -/
example : ∃ d, (bindReadBytes (exTracee ⟨true, false⟩ true 42 (fun _ => 255)) false 42 4097 9 ⟨0, 3, []⟩).1 = .ok d ∧ IsRange (fun _ => 255) 4097 9 d := by
  obtain ⟨h1, -, h3, -⟩ := C121_read_partial (exTracee ⟨true, false⟩ true 42 (fun _ => 255)) 42 _ (exTracee_honest _ _ _ _) 4097 9 (by decide)
    (by decide) ⟨0, 3, []⟩ (Or.inl rfl)
  obtain ⟨d, hd⟩ := h3 (fun before w _ _ _ => ⟨readUint false (exFold ⟨true, false⟩ 42 (fun _ => 255) before) w 8, rfl⟩)
  exact ⟨d, hd, h1 d hd⟩

/-- musl: after the failure of some request the same read raises. -/
example (d : Bytes) : (bindReadBytes (exTracee ⟨true, false⟩ false 42 (fun _ => 255)) false 42 4097 9 ⟨0, 3, []⟩).1 ≠ .ok d :=
  C121_stale_refuted _ rfl 42 (fun _ => 255) (exTracee_honest _ _ _ _) 4097 9 (by decide) ⟨0, 3, []⟩ (by decide) 4104 (by decide) (by decide)
    (by decide) (by rw [exTracee_mem]; exact ⟨by decide, by decide +kernel⟩) d

/-- The C extension cannot write eight bytes of ones. -/
example : bindWriteBytes (exTracee ⟨true, false⟩ true 42 (fun _ => 0)) true 42 4096 [255, 255, 255, 255, 255, 255, 255, 255] ⟨0, 0, []⟩ =
    (.error .overflow, ⟨0, 0, []⟩) :=
  C121_cptrace_refuted _ 42 4096 (by decide) _ (by decide) (2 ^ 64 - 1) (by decide +kernel) (by decide) ⟨0, 0, []⟩

end PT
