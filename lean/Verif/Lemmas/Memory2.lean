import Verif.Lemmas.Memory

namespace PT

/-! ### readBytes -/

/-- A kernel request made on behalf of reading `n` bytes at `a`: never a write. -/
def ReadAccess (W a n : Nat) (x : Access) : Prop :=
  x = .memOpen ∨ x = .memRead a n ∨ ∃ w, x = .peek w ∧ w % W = 0 ∧ w < a + max n 1 ∧ a < w + W

/-- What `readBytes` may do: it never changes memory, only adds non-poke requests to the log, never
clears the fallback flag; a result is a prefix of the true content; errors are `PtraceError`, or
`OverflowError` for an address that does not fit `off_t`. -/
structure ReadRun (k : Kernel) (a n : Nat) (s : MemSt) (r : Except Exc Bytes × MemSt) : Prop where
  mem : r.2.mem = s.mem
  log : ∃ entries, r.2.log = entries ++ s.log ∧ ∀ x ∈ entries, ReadAccess k.arch.W a n x
  sticky : s.fallback = true → r.2.fallback = true
  result : ∀ d, r.1 = .ok d → d.length ≤ n ∧ d = bytesAt s.mem a d.length
  error : ∀ e, r.1 = .error e → (∃ x, e = .ptrace x) ∨ (e = .overflow ∧ 2 ^ 63 ≤ a ∧ s.fallback = false)

theorem readBytesPeek_readRun (k : Kernel) (a n : Nat) (s : MemSt) :
    ReadRun k a n s (readBytesPeek k a n s) := by
  obtain ⟨entries, h⟩ := readBytesPeek_run k a n s
  refine ⟨by rw [h.state], ⟨entries, by rw [h.state], ?_⟩, by rw [h.state]; exact id, ?_, ?_⟩
  · intro x hx
    exact Or.inr (Or.inr (h.touch x hx))
  · intro d hd
    rcases h.outcome with h1 | ⟨w, rest, _, _, h1⟩
    · rw [h1] at hd; injection hd with hd; subst hd; simp
    · rw [h1] at hd; cases hd
  · intro e he
    rcases h.outcome with h1 | ⟨w, rest, _, _, h1⟩
    · rw [h1] at he; cases he
    · rw [h1] at he; injection he with he; exact Or.inl ⟨_, he.symm⟩

theorem readMemFile_readRun (k : Kernel) (a n : Nat) (s : MemSt) (hf : s.fallback = false) :
    ReadRun k a n s (readMemFile k a n s) := by
  unfold readMemFile
  by_cases hb : 2 ^ 63 ≤ a
  · rw [if_pos hb]
    exact ⟨rfl, ⟨[], by simp⟩, id, (by intro d h; cases h),
      (by intro e h; injection h with h; subst h; exact Or.inr ⟨rfl, hb, hf⟩)⟩
  · rw [if_neg hb]
    dsimp only
    cases hr : k.readReply s.log a n with
    | err e =>
      exact ⟨rfl, ⟨[.memRead a n], by simp [ReadAccess]⟩, id, (by intro d h; cases h),
        (by intro e h; injection h with h; subst h; exact Or.inl ⟨_, rfl⟩)⟩
    | count c =>
      dsimp only
      by_cases hz : (bytesAt s.mem a (min c n)).length = 0 ∧ n ≠ 0
      · rw [if_pos hz]
        have h := readBytesPeek_readRun k a n
          { s with log := .memRead a n :: s.log, fallback := true }
        obtain ⟨entries, h1, h2⟩ := h.log
        refine ⟨h.mem, ⟨entries ++ [.memRead a n], by rw [h1]; simp, ?_⟩, fun _ => h.sticky rfl,
          h.result, ?_⟩
        · intro x hx
          rcases List.mem_append.1 hx with hx | hx
          · exact h2 x hx
          · rw [List.mem_singleton] at hx; subst hx; simp [ReadAccess]
        · intro e he
          rcases h.error e he with h | ⟨_, _, h⟩
          · exact Or.inl h
          · cases h
      · rw [if_neg hz]
        refine ⟨rfl, ⟨[.memRead a n], by simp [ReadAccess]⟩, id, ?_, (by intro d h; cases h)⟩
        intro d hd; injection hd with hd; subst hd
        simp [Nat.min_le_right]

theorem readBytes_readRun (k : Kernel) (a n : Nat) (s : MemSt) : ReadRun k a n s (readBytes k a n s) := by
  unfold readBytes
  by_cases hf' : s.fallback = true
  · rw [if_pos hf']; exact readBytesPeek_readRun k a n s
  · have hf : s.fallback = false := by simpa using hf'
    rw [if_neg hf']
    by_cases hm : s.memFile = true
    · rw [if_pos hm]; exact readMemFile_readRun k a n s hf
    · rw [if_neg hm]
      dsimp only
      by_cases ho : k.openErr s.log ≠ 0
      · rw [if_pos ho]
        have h := readBytesPeek_readRun k a n
          { s with log := .memOpen :: s.log, fallback := true }
        obtain ⟨entries, h1, h2⟩ := h.log
        refine ⟨h.mem, ⟨entries ++ [.memOpen], by rw [h1]; simp, ?_⟩, fun _ => h.sticky rfl,
          h.result, ?_⟩
        · intro x hx
          rcases List.mem_append.1 hx with hx | hx
          · exact h2 x hx
          · rw [List.mem_singleton] at hx; subst hx; simp [ReadAccess]
        · intro e he
          rcases h.error e he with h | ⟨_, _, h⟩
          · exact Or.inl h
          · cases h
      · rw [if_neg ho]
        have h := readMemFile_readRun k a n
          { s with log := .memOpen :: s.log, memFile := true } hf
        obtain ⟨entries, h1, h2⟩ := h.log
        refine ⟨h.mem, ⟨entries ++ [.memOpen], by rw [h1]; simp, ?_⟩,
          (fun h => by rw [hf] at h; cases h), h.result, ?_⟩
        · intro x hx
          rcases List.mem_append.1 hx with hx | hx
          · exact h2 x hx
          · rw [List.mem_singleton] at hx; subst hx; simp [ReadAccess]
        · intro e he
          rcases h.error e he with h | ⟨h1, h2, _⟩
          · exact Or.inl h
          · exact Or.inr ⟨h1, h2, hf⟩

/-! ### stores -/

theorem storeBytes_in (m : Nat → Byte) (a : Nat) (d : Bytes) (i : Nat) (h : i < d.length) :
    storeBytes m a d (a + i) = d[i] := by
  unfold storeBytes
  rw [if_pos (by omega), Nat.add_sub_cancel_left, List.getElem?_eq_getElem h]

theorem storeBytes_out (m : Nat → Byte) (a : Nat) (d : Bytes) (x : Nat) (h : x < a ∨ a + d.length ≤ x) :
    storeBytes m a d x = m x := by
  unfold storeBytes
  by_cases hx : a ≤ x
  · rw [if_pos hx, List.getElem?_eq_none (by omega)]
  · rw [if_neg hx]

theorem written_iff (m : Nat → Byte) (a : Nat) (d : Bytes) (m' : Nat → Byte) :
    Spec.Written m a d m' ↔ m' = storeBytes m a d := by
  constructor
  · rintro ⟨h1, h2⟩
    funext x
    by_cases hx : x < a ∨ a + d.length ≤ x
    · rw [h2 x hx, storeBytes_out _ _ _ _ hx]
    · have : x = a + (x - a) := by omega
      rw [this, storeBytes_in _ _ _ _ (by omega), h1 (x - a) (by omega)]
  · rintro rfl
    exact ⟨fun i h => storeBytes_in m a d i h, fun x h => storeBytes_out m a d x h⟩

@[simp] theorem storeBytes_nil (m : Nat → Byte) (a : Nat) : storeBytes m a [] = m := by
  symm; rw [← written_iff]; exact ⟨by simp, by simp⟩

theorem storeBytes_append (m : Nat → Byte) (a : Nat) (d e : Bytes) :
    storeBytes m a (d ++ e) = storeBytes (storeBytes m a d) (a + d.length) e := by
  symm; rw [← written_iff]
  refine ⟨?_, ?_⟩
  · intro i hi
    simp only [List.length_append] at hi
    by_cases h : i < d.length
    · rw [storeBytes_out _ _ _ _ (by omega), storeBytes_in _ _ _ _ h, List.getElem_append_left]
    · have : a + i = a + d.length + (i - d.length) := by omega
      rw [this, storeBytes_in _ _ _ _ (by omega), List.getElem_append_right (by omega)]
  · intro x hx
    simp only [List.length_append] at hx
    rw [storeBytes_out _ _ _ _ (by omega), storeBytes_out _ _ _ _ (by omega)]

theorem storeBytes_bytesAt (m : Nat → Byte) (a n : Nat) : storeBytes m a (bytesAt m a n) = m := by
  symm; rw [← written_iff]; exact ⟨by simp, by simp⟩

/-- Storing old bytes in front changes nothing there. -/
theorem storeBytes_old_prefix (m : Nat → Byte) (a n : Nat) (d : Bytes) :
    storeBytes m a (bytesAt m a n ++ d) = storeBytes m (a + n) d := by
  rw [storeBytes_append, storeBytes_bytesAt, bytesAt_length]

/-- Storing old bytes behind changes nothing there. -/
theorem storeBytes_old_suffix (m : Nat → Byte) (a n : Nat) (d : Bytes) :
    storeBytes m a (d ++ bytesAt m (a + d.length) n) = storeBytes m a d := by
  symm
  rw [← written_iff]
  refine ⟨?_, ?_⟩
  · intro i hi
    simp only [List.length_append, bytesAt_length] at hi
    by_cases h : i < d.length
    · rw [storeBytes_in _ _ _ _ h, List.getElem_append_left]
    · rw [storeBytes_out _ _ _ _ (by omega), List.getElem_append_right (by omega), bytesAt_getElem]
      congr 1; omega
  · intro x hx
    simp only [List.length_append, bytesAt_length] at hx
    rw [storeBytes_out _ _ _ _ (by omega)]

theorem bytesAt_storeBytes (m : Nat → Byte) (a : Nat) (d : Bytes) :
    bytesAt (storeBytes m a d) a d.length = d := by
  apply List.ext_getElem
  · simp
  · intro i h1 h2; rw [bytesAt_getElem, storeBytes_in]

/-! ### writeBytes -/

theorem bytes2word_cases (a : Arch) (b : Bytes) :
    (b.length = a.W ∧ ∃ w : Nat, bytes2word a b = .ok w ∧ wordBytes a w = b) ∨
    (b.length ≠ a.W ∧ bytes2word a b = .error .struct) := by
  by_cases h : b.length = a.W
  · left
    refine ⟨h, leValue (if a.big then b.reverse else b), ?_, ?_⟩
    · unfold bytes2word unpackUint; rw [if_pos h]
    · unfold wordBytes
      cases a.big
      · simp only [Bool.false_eq_true, if_false]; rw [← h, leBytes_leValue]
      · simp only [if_true]
        have : a.W = b.reverse.length := by simp [h]
        rw [this, leBytes_leValue, List.reverse_reverse]
  · right
    refine ⟨h, ?_⟩
    unfold bytes2word unpackUint; rw [if_neg h]

theorem wordBytes_length (a : Arch) (w : Nat) : (wordBytes a w).length = a.W := by
  unfold wordBytes; split <;> simp

/-- Outcome of `writeWord` at an aligned address. -/
theorem writeWord_cases (k : Kernel) (a w : Nat) (s : MemSt) (ha : a % k.arch.W = 0) :
    (k.pokeErr s.log a = 0 ∧ writeWord k a w s = (.ok (), { s with log := .poke a w :: s.log, mem := storeBytes s.mem a (wordBytes k.arch w) })) ∨
    (k.pokeErr s.log a ≠ 0 ∧ writeWord k a w s = (.error (.ptrace (some (k.pokeErr s.log a))), { s with log := .poke a w :: s.log })) := by
  unfold writeWord
  rw [if_neg (by simp [ha])]
  by_cases h : k.pokeErr s.log a = 0
  · exact Or.inl ⟨h, by simp [h]⟩
  · exact Or.inr ⟨h, by simp [h]⟩

/-- What a write may do: memory is the old one with a prefix written; a normal return means all of it, an
exception means not all of it. -/
structure WriteRun (a : Nat) (d : Bytes) (s : MemSt) (r : Except Exc Unit × MemSt) : Prop where
  mem : ∃ j, j ≤ d.length ∧ r.2.mem = storeBytes s.mem a (d.take j) ∧ (r.1 = .ok () → j = d.length) ∧
    (∀ e, r.1 = .error e → d ≠ [] → j < d.length)
  sticky : s.fallback = true → r.2.fallback = true
  error : ∀ e, r.1 = .error e → (∃ x, e = .ptrace x) ∨ (e = .overflow ∧ s.fallback = false) ∨
    (e = .struct ∧ s.fallback = false)

theorem writeWords_nil (k : Kernel) (a : Nat) (s : MemSt) : writeWords k a [] s = (.ok (), s) := by
  rw [writeWords]
  have hW := W_pos k.arch
  rw [dif_neg (by simp; omega), if_pos rfl]; rfl

theorem writeWords_run (k : Kernel) (n : Nat) : ∀ (a : Nat) (d : Bytes) (s : MemSt), d.length = n →
    a % k.arch.W = 0 → WriteRun a d s (writeWords k a d s) := by
  induction n using Nat.strongRecOn with
  | _ n ih =>
    intro a d s hn ha
    have hW := W_pos k.arch
    rw [writeWords]
    by_cases hl : k.arch.W ≤ d.length
    · simp only [hl, dite_true]
      rcases bytes2word_cases k.arch (d.take k.arch.W) with ⟨_, w, h1, h2⟩ | ⟨h1, _⟩
      · rw [Py.bind_eq_ok (a := w) (s' := s) (by unfold liftE; rw [h1])]
        rcases writeWord_cases k a w s ha with ⟨_, h3⟩ | ⟨_, h3⟩
        · rw [Py.bind_eq_ok h3]
          have h := ih (n - k.arch.W) (by omega) (a + k.arch.W) (d.drop k.arch.W)
            { s with log := .poke a w :: s.log, mem := storeBytes s.mem a (wordBytes k.arch w) }
            (by simp [hn]) (by rw [Nat.add_mod_right]; exact ha)
          obtain ⟨j, hj1, hj2, hj3, hj4⟩ := h.mem
          simp only [List.length_drop] at hj1 hj3 hj4
          refine ⟨⟨k.arch.W + j, by omega, ?_, fun h => by have := hj3 h; omega,
            fun e he _ => by
              by_cases hn : d.drop k.arch.W = []
              · rw [hn, writeWords_nil] at he; cases he
              · have := hj4 e he hn; omega⟩, h.sticky, h.error⟩
          rw [hj2]
          dsimp only
          rw [h2, List.take_add, storeBytes_append]
          congr 1
          simp; omega
        · rw [Py.bind_eq_error h3]
          refine ⟨⟨0, by omega, by simp, (by intro h; cases h), fun _ _ hd => List.length_pos_iff.2 hd⟩, id, ?_⟩
          intro e he; injection he with he; exact Or.inl ⟨_, he.symm⟩
      · simp at h1; omega
    · simp only [hl, dite_false]
      by_cases hd : d = []
      · rw [if_pos hd]; subst hd
        exact ⟨⟨0, by simp, by simp [Py.pure], by simp, fun _ _ hd => absurd rfl hd⟩, id, by intro e h; cases h⟩
      · rw [if_neg hd]
        have hr := readBytes_readRun k a k.arch.W s
        cases hrd : readBytes k a k.arch.W s with
        | mk res s1 =>
          rw [hrd] at hr
          have hm : s1.mem = s.mem := hr.mem
          cases res with
          | error e =>
            rw [Py.bind_eq_error hrd]
            refine ⟨⟨0, by omega, by simp [hm], (by intro h; cases h), fun _ _ hd => List.length_pos_iff.2 hd⟩, hr.sticky, ?_⟩
            intro e' he
            injection he with he; subst he
            rcases hr.error e rfl with h | ⟨h, _, h'⟩
            · exact Or.inl h
            · exact Or.inr (Or.inl ⟨h, h'⟩)
          | ok word =>
            rw [Py.bind_eq_ok hrd]
            obtain ⟨h1, h2⟩ := hr.result word rfl
            rcases bytes2word_cases k.arch (d ++ word.drop d.length) with ⟨h3, w, h4, h5⟩ | ⟨h3, h4⟩
            · rw [Py.bind_eq_ok (a := w) (s' := s1) (by unfold liftE; rw [h4])]
              rcases writeWord_cases k a w s1 ha with ⟨_, h6⟩ | ⟨_, h6⟩
              · rw [h6]
                refine ⟨⟨d.length, Nat.le_refl _, ?_, fun _ => rfl, by intro e h; cases h⟩, hr.sticky, by intro e h; cases h⟩
                dsimp only
                rw [h5, h2, bytesAt_drop, hm, List.take_length, storeBytes_old_suffix]
              · rw [h6]
                refine ⟨⟨0, by omega, by simp [hm], (by intro h; cases h), fun _ _ hd => List.length_pos_iff.2 hd⟩, hr.sticky, ?_⟩
                intro e he; injection he with he; exact Or.inl ⟨_, he.symm⟩
            · rw [Py.bind_eq_error (e := .struct) (s' := s1) (by unfold liftE; rw [h4])]
              refine ⟨⟨0, by omega, by simp [hm], (by intro h; cases h), fun _ _ hd => List.length_pos_iff.2 hd⟩, hr.sticky, ?_⟩
              intro e he; injection he with he; subst he
              refine Or.inr (Or.inr ⟨rfl, ?_⟩)
              cases hf : s.fallback with
              | false => rfl
              | true =>
                exfalso
                have hpk : readBytes k a k.arch.W s = readBytesPeek k a k.arch.W s := by
                  unfold readBytes; rw [hf]; simp
                obtain ⟨_, hp⟩ := readBytesPeek_run k a k.arch.W s
                rw [← hpk, hrd] at hp
                rcases hp.outcome with h | ⟨_, _, _, _, h⟩
                · injection h with h
                  apply h3
                  rw [h]; simp; omega
                · cases h

theorem writeBytes_run (k : Kernel) (a : Nat) (d : Bytes) (s : MemSt) :
    WriteRun a d s (writeBytes k a d s) := by
  have hW := W_pos k.arch
  have hlt := Nat.mod_lt a hW
  have hle := Nat.mod_le a k.arch.W
  unfold writeBytes
  by_cases h0 : a % k.arch.W = 0
  · simp only [h0, ne_eq, not_true_eq_false, if_false]
    exact writeWords_run k d.length a d s rfl h0
  · simp only [h0, ne_eq, not_false_eq_true, if_true]
    have hal : (a - a % k.arch.W) % k.arch.W = 0 := Nat.sub_mod_eq_zero_of_mod_eq (by simp)
    generalize ho : a % k.arch.W = o at *
    have hr := readBytes_readRun k (a - o) k.arch.W s
    cases hrd : readBytes k (a - o) k.arch.W s with
    | mk res s1 =>
      rw [hrd] at hr
      have hm : s1.mem = s.mem := hr.mem
      cases res with
      | error e =>
        rw [Py.bind_eq_error hrd]
        refine ⟨⟨0, by omega, by simp [hm], (by intro h; cases h), fun _ _ hd => List.length_pos_iff.2 hd⟩, hr.sticky, ?_⟩
        intro e' he
        injection he with he; subst he
        rcases hr.error e rfl with h | ⟨h, _, h'⟩
        · exact Or.inl h
        · exact Or.inr (Or.inl ⟨h, h'⟩)
      | ok word =>
        rw [Py.bind_eq_ok hrd]
        obtain ⟨h1, h2⟩ := hr.result word rfl
        -- the word to be written, and how many bytes of `d` it holds
        have key : ∀ (size : Nat) (wd : Bytes), size ≤ d.length → (size = d.length ∨ o + size = k.arch.W) →
            (wd.length = k.arch.W → storeBytes s.mem (a - o) wd = storeBytes s.mem a (d.take size)) →
            (word.length = k.arch.W → wd.length = k.arch.W) →
            WriteRun a d s ((Py.bind (liftE (bytes2word k.arch wd)) fun w =>
              Py.bind (writeWord k (a - o) w) fun _ =>
              writeWords k (a - o + k.arch.W) (d.drop size)) s1) := by
          intro size wd hs hs' hst hfull
          rcases bytes2word_cases k.arch wd with ⟨h3, w, h4, h5⟩ | ⟨h3, h4⟩
          · rw [Py.bind_eq_ok (a := w) (s' := s1) (by unfold liftE; rw [h4])]
            rcases writeWord_cases k (a - o) w s1 hal with ⟨_, h6⟩ | ⟨_, h6⟩
            · rw [Py.bind_eq_ok h6]
              have h := writeWords_run k (d.drop size).length (a - o + k.arch.W) (d.drop size)
                { s1 with log := .poke (a - o) w :: s1.log, mem := storeBytes s1.mem (a - o) (wordBytes k.arch w) }
                rfl (by rw [Nat.add_mod_right]; exact hal)
              obtain ⟨j, hj1, hj2, hj3, hj4⟩ := h.mem
              simp only [List.length_drop] at hj1 hj3 hj4
              refine ⟨⟨size + j, by omega, ?_, fun h => by have := hj3 h; omega,
                fun e he _ => by
                  by_cases hn : d.drop size = []
                  · rw [hn, writeWords_nil] at he; cases he
                  · have := hj4 e he hn; omega⟩,
                fun hf => h.sticky (hr.sticky hf), ?_⟩
              · rw [hj2]
                dsimp only
                rw [h5, hm, hst h3, List.take_add, storeBytes_append]
                rcases hs' with rfl | hs'
                · simp
                · congr 1
                  simp only [List.length_take]; omega
              · intro e he
                have hne : s1.fallback = false → s.fallback = false := by
                  intro h; cases hf : s.fallback with
                  | false => rfl
                  | true => have h' : s1.fallback = true := hr.sticky hf; rw [h] at h'; cases h'
                rcases h.error e he with h | ⟨h, h'⟩ | ⟨h, h'⟩
                · exact Or.inl h
                · exact Or.inr (Or.inl ⟨h, hne h'⟩)
                · exact Or.inr (Or.inr ⟨h, hne h'⟩)
            · rw [Py.bind_eq_error h6]
              refine ⟨⟨0, by omega, by simp [hm], (by intro h; cases h), fun _ _ hd => List.length_pos_iff.2 hd⟩, hr.sticky, ?_⟩
              intro e he; injection he with he; exact Or.inl ⟨_, he.symm⟩
          · rw [Py.bind_eq_error (e := .struct) (s' := s1) (by unfold liftE; rw [h4])]
            refine ⟨⟨0, by omega, by simp [hm], (by intro h; cases h), fun _ _ hd => List.length_pos_iff.2 hd⟩, hr.sticky, ?_⟩
            intro e he; injection he with he; subst he
            refine Or.inr (Or.inr ⟨rfl, ?_⟩)
            cases hf : s.fallback with
            | false => rfl
            | true =>
              exfalso
              have hpk : readBytes k (a - o) k.arch.W s = readBytesPeek k (a - o) k.arch.W s := by
                unfold readBytes; rw [hf]; simp
              obtain ⟨_, hp⟩ := readBytesPeek_run k (a - o) k.arch.W s
              rw [← hpk, hrd] at hp
              rcases hp.outcome with h | ⟨_, _, _, _, h⟩
              · injection h with h
                apply h3; apply hfull
                rw [h]; simp
              · cases h
        have hao : a - o + o = a := by omega
        by_cases hs : d.length < k.arch.W - o
        · simp only [hs, if_true]
          refine key d.length _ (Nat.le_refl _) (Or.inl rfl) ?_ ?_
          · intro hl
            rw [List.take_length] at hl ⊢
            rw [h2] at hl ⊢
            simp only [bytesAt_take, bytesAt_drop, List.length_append, bytesAt_length] at hl ⊢
            have e1 : min o word.length = o := by omega
            rw [e1, List.append_assoc, storeBytes_old_prefix, hao]
            have e2 : a - o + (o + d.length) = a + d.length := by omega
            rw [e2, storeBytes_old_suffix]
          · intro hl
            simp; omega
        · simp only [hs, if_false]
          refine key (k.arch.W - o) _ (by omega) (Or.inr (by omega)) ?_ ?_
          · intro hl
            rw [h2] at hl ⊢
            simp only [bytesAt_take, List.length_append, bytesAt_length, List.length_take] at hl ⊢
            have e1 : min o word.length = o := by omega
            rw [e1, storeBytes_old_prefix, hao]
          · intro hl
            simp; omega

end PT
