import Verif.Lemmas.Memory2

namespace PT

/-! ### success of reads and writes, C strings -/

theorem readBytesPeek_ok (k : Kernel) (a n : Nat) (s : MemSt)
    (hp : ∀ log w, w % k.arch.W = 0 → w < a + max n 1 → a < w + k.arch.W → k.peekErr log w = 0) :
    (readBytesPeek k a n s).1 = .ok (bytesAt s.mem a n) := by
  obtain ⟨entries, h⟩ := readBytesPeek_run k a n s
  rcases h.outcome with h1 | ⟨w, rest, h1, h2, _⟩
  · exact h1
  · exfalso
    obtain ⟨w', e1, e2, e3, e4⟩ := h.touch (.peek w) (by rw [h1]; simp)
    injection e1 with e1; subst e1
    exact h2 (hp _ w e2 e3 e4)

theorem readMemFile_ok (k : Kernel) (a n : Nat) (s : MemSt)
    (hp : ∀ log w, w % k.arch.W = 0 → w < a + max n 1 → a < w + k.arch.W → k.peekErr log w = 0)
    (hr : ∀ log, ∃ c, k.readReply log a n = .count c ∧ (c = 0 ∨ n ≤ c)) (ha : a < 2 ^ 63) :
    (readMemFile k a n s).1 = .ok (bytesAt s.mem a n) := by
  unfold readMemFile
  rw [if_neg (by omega)]
  obtain ⟨c, h1, h2⟩ := hr s.log
  simp only [h1, bytesAt_length]
  by_cases hz : min c n = 0 ∧ n ≠ 0
  · rw [if_pos hz]
    exact readBytesPeek_ok k a n _ hp
  · rw [if_neg hz]
    show Except.ok _ = _
    congr 2
    omega

theorem readBytes_ok (k : Kernel) (a n : Nat) (s : MemSt)
    (hp : ∀ log w, w % k.arch.W = 0 → w < a + max n 1 → a < w + k.arch.W → k.peekErr log w = 0)
    (hr : ∀ log, ∃ c, k.readReply log a n = .count c ∧ (c = 0 ∨ n ≤ c)) (ha : a < 2 ^ 63) :
    (readBytes k a n s).1 = .ok (bytesAt s.mem a n) := by
  unfold readBytes
  by_cases hf : s.fallback = true
  · rw [if_pos hf]; exact readBytesPeek_ok k a n s hp
  · rw [if_neg hf]
    by_cases hm : s.memFile = true
    · rw [if_pos hm]; exact readMemFile_ok k a n s hp hr ha
    · rw [if_neg hm]
      dsimp only
      by_cases ho : k.openErr s.log ≠ 0
      · rw [if_pos ho]; exact readBytesPeek_ok k a n _ hp
      · rw [if_neg ho]; exact readMemFile_ok k a n _ hp hr ha

theorem writeWords_ok (k : Kernel) (n : Nat) : ∀ (a : Nat) (d : Bytes) (s : MemSt), d.length = n →
    a % k.arch.W = 0 → a + n < 2 ^ 63 →
    (∀ log w, w % k.arch.W = 0 → w < a + n → a < w + k.arch.W → k.peekErr log w = 0 ∧ k.pokeErr log w = 0
      ∧ ∃ c, k.readReply log w k.arch.W = .count c ∧ (c = 0 ∨ k.arch.W ≤ c)) →
    (writeWords k a d s).1 = .ok () := by
  induction n using Nat.strongRecOn with
  | _ n ih =>
    intro a d s hn ha hb hk
    have hW := W_pos k.arch
    rw [writeWords]
    by_cases hl : k.arch.W ≤ d.length
    · simp only [hl, dite_true]
      rcases bytes2word_cases k.arch (d.take k.arch.W) with ⟨_, w, h1, h2⟩ | ⟨h1, _⟩
      · rw [Py.bind_eq_ok (a := w) (s' := s) (by unfold liftE; rw [h1])]
        rcases writeWord_cases k a w s ha with ⟨_, h3⟩ | ⟨h3, _⟩
        · rw [Py.bind_eq_ok h3]
          exact ih (n - k.arch.W) (by omega) (a + k.arch.W) (d.drop k.arch.W) _
            (by simp [hn]) (by rw [Nat.add_mod_right]; exact ha) (by omega)
            (fun log w e1 e2 e3 => hk log w e1 (by omega) (by omega))
        · exact absurd (hk _ a ha (by omega) (by omega)).2.1 h3
      · simp at h1; omega
    · simp only [hl, dite_false]
      by_cases hd : d = []
      · rw [if_pos hd]; rfl
      · rw [if_neg hd]
        have hpos : 0 < d.length := List.length_pos_iff.2 hd
        have hdv : k.arch.W ∣ a := Nat.dvd_of_mod_eq_zero ha
        have hpk : ∀ log w, w % k.arch.W = 0 → w < a + max k.arch.W 1 → a < w + k.arch.W →
            k.peekErr log w = 0 := by
          intro log w e1 e2 e3
          have hwv : k.arch.W ∣ w := Nat.dvd_of_mod_eq_zero e1
          obtain ⟨p, hp⟩ := hdv
          obtain ⟨q, hq⟩ := hwv
          have : w = a := by
            have hmx : max k.arch.W 1 = k.arch.W := by omega
            rw [hmx] at e2
            rw [hp, hq] at e2 e3 ⊢
            have h1 : k.arch.W * q < k.arch.W * (p + 1) := by rw [Nat.mul_add]; omega
            have h2 : k.arch.W * p < k.arch.W * (q + 1) := by rw [Nat.mul_add]; omega
            have h1 := Nat.lt_of_mul_lt_mul_left h1
            have h2 := Nat.lt_of_mul_lt_mul_left h2
            have : p = q := by omega
            rw [this]
          subst this
          exact (hk log w ha (by omega) (by omega)).1
        have hrd := readBytes_ok k a k.arch.W s hpk
          (fun log => (hk log a ha (by omega) (by omega)).2.2) (by omega)
        have hrr := readBytes_readRun k a k.arch.W s
        cases hrb : readBytes k a k.arch.W s with
        | mk res s1 =>
          rw [hrb] at hrd
          have hrd' : res = .ok (bytesAt s.mem a k.arch.W) := hrd
          subst hrd'
          rw [Py.bind_eq_ok hrb]
          rcases bytes2word_cases k.arch (d ++ (bytesAt s.mem a k.arch.W).drop d.length) with
            ⟨h3, w, h4, h5⟩ | ⟨h3, h4⟩
          · rw [Py.bind_eq_ok (a := w) (s' := s1) (by unfold liftE; rw [h4])]
            rcases writeWord_cases k a w s1 ha with ⟨_, h6⟩ | ⟨h6, _⟩
            · rw [h6]
            · exact absurd (hk _ a ha (by omega) (by omega)).2.1 h6
          · exfalso; apply h3; simp; omega

theorem writeBytes_ok (k : Kernel) (a : Nat) (d : Bytes) (s : MemSt) (hd : d ≠ [])
    (hb : a + d.length < 2 ^ 63)
    (hk : ∀ log w, w % k.arch.W = 0 → w < a + d.length → a < w + k.arch.W →
      k.peekErr log w = 0 ∧ k.pokeErr log w = 0
      ∧ ∃ c, k.readReply log w k.arch.W = .count c ∧ (c = 0 ∨ k.arch.W ≤ c)) :
    (writeBytes k a d s).1 = .ok () := by
  have hW := W_pos k.arch
  have hlt := Nat.mod_lt a hW
  have hle := Nat.mod_le a k.arch.W
  have hpos : 0 < d.length := List.length_pos_iff.2 hd
  unfold writeBytes
  by_cases h0 : a % k.arch.W = 0
  · simp only [h0, ne_eq, not_true_eq_false, if_false]
    exact writeWords_ok k d.length a d s rfl h0 hb hk
  · simp only [h0, ne_eq, not_false_eq_true, if_true]
    have hal : (a - a % k.arch.W) % k.arch.W = 0 := Nat.sub_mod_eq_zero_of_mod_eq (by simp)
    generalize ho : a % k.arch.W = o at *
    have hpk : ∀ log w, w % k.arch.W = 0 → w < a - o + max k.arch.W 1 → a - o < w + k.arch.W →
        k.peekErr log w = 0 := by
      intro log w e1 e2 e3
      obtain ⟨p, hp⟩ := Nat.dvd_of_mod_eq_zero hal
      obtain ⟨q, hq⟩ := Nat.dvd_of_mod_eq_zero e1
      have : w = a - o := by
        have hmx : max k.arch.W 1 = k.arch.W := by omega
        rw [hmx] at e2
        rw [hp, hq] at e2 e3 ⊢
        have h1 : k.arch.W * q < k.arch.W * (p + 1) := by rw [Nat.mul_add]; omega
        have h2 : k.arch.W * p < k.arch.W * (q + 1) := by rw [Nat.mul_add]; omega
        have h1 := Nat.lt_of_mul_lt_mul_left h1
        have h2 := Nat.lt_of_mul_lt_mul_left h2
        have : p = q := by omega
        rw [this]
      subst this
      exact (hk log _ hal (by omega) (by omega)).1
    have hrd := readBytes_ok k (a - o) k.arch.W s hpk
      (fun log => (hk log _ hal (by omega) (by omega)).2.2) (by omega)
    cases hrb : readBytes k (a - o) k.arch.W s with
    | mk res s1 =>
      rw [hrb] at hrd
      have hrd' : res = .ok (bytesAt s.mem (a - o) k.arch.W) := hrd
      subst hrd'
      rw [Py.bind_eq_ok hrb]
      have key : ∀ (size : Nat) (wd : Bytes), wd.length = k.arch.W →
          (size = d.length ∨ o + size = k.arch.W) →
          ((Py.bind (liftE (bytes2word k.arch wd)) fun w =>
              Py.bind (writeWord k (a - o) w) fun _ =>
              writeWords k (a - o + k.arch.W) (d.drop size)) s1).1 = .ok () := by
        intro size wd hl hs
        rcases bytes2word_cases k.arch wd with ⟨h3, w, h4, h5⟩ | ⟨h3, h4⟩
        · rw [Py.bind_eq_ok (a := w) (s' := s1) (by unfold liftE; rw [h4])]
          rcases writeWord_cases k (a - o) w s1 hal with ⟨_, h6⟩ | ⟨h6, _⟩
          · rw [Py.bind_eq_ok h6]
            rcases hs with rfl | hs
            · rw [List.drop_length, writeWords]
              simp [Nat.not_le.2 hW, Py.pure]
            · by_cases hsd : size ≤ d.length
              · refine writeWords_ok k (d.drop size).length _ _ _ rfl
                  (by rw [Nat.add_mod_right]; exact hal) ?_ ?_
                · simp only [List.length_drop]; omega
                · intro log w e1 e2 e3
                  simp only [List.length_drop] at e2
                  exact hk log w e1 (by omega) (by omega)
              · rw [List.drop_eq_nil_of_le (by omega), writeWords]
                simp [Nat.not_le.2 hW, Py.pure]
          · exact absurd (hk _ _ hal (by omega) (by omega)).2.1 h6
        · exact absurd hl h3
      by_cases hs : d.length < k.arch.W - o
      · simp only [hs, if_true]
        exact key d.length _ (by simp; omega) (Or.inl rfl)
      · simp only [hs, if_false]
        exact key (k.arch.W - o) _ (by simp; omega) (Or.inr (by omega))

end PT
