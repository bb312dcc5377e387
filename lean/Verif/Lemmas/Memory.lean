import Verif.Model.Memory
import Verif.Spec.Memory
import Verif.Lemmas.Ints
import Verif.Lemmas.Bytes

namespace PT

@[simp] theorem bytesAt_length (m : Nat → Byte) (a n : Nat) : (bytesAt m a n).length = n := by
  simp [bytesAt]

@[simp] theorem bytesAt_zero (m : Nat → Byte) (a : Nat) : bytesAt m a 0 = [] := rfl

@[simp] theorem bytesAt_getElem (m : Nat → Byte) (a n i : Nat) (h : i < (bytesAt m a n).length) :
    (bytesAt m a n)[i] = m (a + i) := by
  simp [bytesAt]

theorem isRange_iff (m : Nat → Byte) (a n : Nat) (d : Bytes) :
    Spec.IsRange m a n d ↔ d = bytesAt m a n := by
  constructor
  · rintro ⟨hl, h⟩
    apply List.ext_getElem
    · simp [hl]
    · intro i h1 h2; rw [h i h1, bytesAt_getElem]
  · rintro rfl
    exact ⟨by simp, fun i h => by simp⟩

theorem bytesAt_add (m : Nat → Byte) (a p q : Nat) :
    bytesAt m a (p + q) = bytesAt m a p ++ bytesAt m (a + p) q := by
  apply List.ext_getElem
  · simp
  · intro i h1 h2
    rw [List.getElem_append]
    split
    · simp
    · rename_i h
      simp only [bytesAt_length] at h
      simp only [bytesAt_getElem, bytesAt_length]
      congr 1; omega

theorem bytesAt_take (m : Nat → Byte) (a n i : Nat) : (bytesAt m a n).take i = bytesAt m a (min i n) := by
  apply List.ext_getElem
  · simp
  · intro j h1 h2; simp

theorem bytesAt_drop (m : Nat → Byte) (a n i : Nat) :
    (bytesAt m a n).drop i = bytesAt m (a + i) (n - i) := by
  apply List.ext_getElem
  · simp
  · intro j h1 h2; simp; congr 1; omega

theorem bytesAt_slice (m : Nat → Byte) (a n i j : Nat) (_hij : i ≤ j) (hj : j ≤ n) :
    slice (bytesAt m a n) i j = bytesAt m (a + i) (j - i) := by
  unfold slice
  rw [bytesAt_take, bytesAt_drop, Nat.min_eq_left hj]

/-! ### words -/

theorem native_lt (a : Arch) (b : Bytes) (h : b.length = a.W) : readNativeUint a b < 256 ^ a.W := by
  unfold readNativeUint
  have := leValue_lt (if a.big then b.reverse else b)
  have hl : (if a.big then b.reverse else b).length = a.W := by split <;> simp [h]
  rwa [hl] at this

theorem word2bytes_native (a : Arch) (b : Bytes) (h : b.length = a.W) :
    word2bytes a (readNativeUint a b : Nat) = .ok b := by
  apply pack_unpack
  unfold unpackUint readNativeUint
  rw [if_pos h]

theorem ulong2long_maxUint (a : Arch) : ulong2long a a.maxUint = -1 := by
  rcases a with ⟨_ | _, b⟩
  · simp only [ulong2long, Arch.maxUint, Bool.false_eq_true, if_false, uint2int32_eq]; decide
  · simp only [ulong2long, Arch.maxUint, if_true, uint2int64_eq]; decide

theorem checkPeek_ok (a : Arch) (w : Nat) : checkPeek a w 0 = .ok w := by
  unfold checkPeek; simp

theorem checkPeek_err (a : Arch) (e : Nat) (h : e ≠ 0) :
    checkPeek a a.maxUint e = .error (.ptrace (some e)) := by
  unfold checkPeek; rw [if_pos (ulong2long_maxUint a), if_pos h]

theorem readWord_ok (k : Kernel) (a : Nat) (s : MemSt) (ha : a % k.arch.W = 0)
    (h : k.peekErr s.log a = 0) :
    readWord k a s = (.ok (readNativeUint k.arch (bytesAt s.mem a k.arch.W)),
      { s with log := .peek a :: s.log }) := by
  unfold readWord
  simp only [ha, h, ne_eq, not_true_eq_false, if_false, checkPeek_ok]

theorem readWord_err (k : Kernel) (a : Nat) (s : MemSt) (ha : a % k.arch.W = 0)
    (h : k.peekErr s.log a ≠ 0) :
    readWord k a s = (.error (.ptrace (some (k.peekErr s.log a))),
      { s with log := .peek a :: s.log }) := by
  unfold readWord
  simp only [ha, h, ne_eq, not_true_eq_false, not_false_eq_true, if_false, if_true, checkPeek_err _ _ h]

theorem Py.bind_eq_ok {σ α β : Type} {m : Py σ α} {f : α → Py σ β} {s s' : σ} {a : α}
    (h : m s = (.ok a, s')) : Py.bind m f s = f a s' := by unfold Py.bind; rw [h]
theorem Py.bind_eq_error {σ α β : Type} {m : Py σ α} {f : α → Py σ β} {s s' : σ} {e : Exc}
    (h : m s = (.error e, s')) : Py.bind m f s = (.error e, s') := by unfold Py.bind; rw [h]

/-- What a word-by-word read may have done: peeks of aligned words touching the range, nothing else
changed; and its outcome is the exact content or the error of the last peek. -/
structure PeekRun (k : Kernel) (lo hi : Nat) (s : MemSt) (good : Bytes)
    (r : Except Exc Bytes × MemSt) (entries : List Access) : Prop where
  state : r.2 = { s with log := entries ++ s.log }
  touch : ∀ x ∈ entries, ∃ w, x = .peek w ∧ w % k.arch.W = 0 ∧ w < hi ∧ lo < w + k.arch.W
  outcome : r.1 = .ok good ∨
    ∃ w rest, entries = .peek w :: rest ∧ k.peekErr (rest ++ s.log) w ≠ 0 ∧
      r.1 = .error (.ptrace (some (k.peekErr (rest ++ s.log) w)))
  clean : r.1 = .ok good → ∀ pre w rest, entries = pre ++ .peek w :: rest → k.peekErr (rest ++ s.log) w = 0

theorem PeekRun.cons {k : Kernel} {lo hi a : Nat} {s : MemSt} {good : Bytes}
    {r : Except Exc Bytes × MemSt} {entries : List Access}
    (h : PeekRun k lo hi { s with log := .peek a :: s.log } good r entries)
    (ha : a % k.arch.W = 0) (h1 : a < hi) (h2 : lo < a + k.arch.W) (he : k.peekErr s.log a = 0) :
    PeekRun k lo hi s good r (entries ++ [.peek a]) := by
  refine ⟨?_, ?_, ?_, ?_⟩
  · rw [h.state]; simp
  · intro x hx
    rcases List.mem_append.1 hx with hx | hx
    · exact h.touch x hx
    · rw [List.mem_singleton] at hx
      exact ⟨a, hx, ha, h1, h2⟩
  · rcases h.outcome with h | ⟨w, rest, hw, h3, h4⟩
    · exact Or.inl h
    · refine Or.inr ⟨w, rest ++ [.peek a], by rw [hw]; rfl, ?_, ?_⟩
      · simpa using h3
      · simpa using h4
  · intro hg pre w rest hs
    rcases List.eq_nil_or_concat rest with rfl | ⟨rest', x, rfl⟩
    · have := List.append_inj_right' hs rfl
      simp at this; subst this
      simpa using he
    · have hs' : entries ++ [Access.peek a] = (pre ++ .peek w :: rest') ++ [x] := by simpa using hs
      have h5 := List.append_inj_left' hs' rfl
      have h6 := List.append_inj_right' hs' rfl
      simp at h6; subst h6
      simpa using h.clean hg pre w rest' h5

theorem PeekRun.fail {k : Kernel} {lo hi a : Nat} {s : MemSt} {good : Bytes}
    (ha : a % k.arch.W = 0) (h1 : a < hi) (h2 : lo < a + k.arch.W) (he : k.peekErr s.log a ≠ 0) :
    PeekRun k lo hi s good (.error (.ptrace (some (k.peekErr s.log a))),
      { s with log := .peek a :: s.log }) [.peek a] := by
  refine ⟨rfl, ?_, Or.inr ⟨a, [], rfl, he, rfl⟩, ?_⟩
  · intro x hx; rw [List.mem_singleton] at hx; exact ⟨a, hx, ha, h1, h2⟩
  · intro h; cases h

theorem PeekRun.mono {k : Kernel} {lo hi lo' hi' : Nat} {s : MemSt} {good : Bytes}
    {r : Except Exc Bytes × MemSt} {entries : List Access}
    (h : PeekRun k lo hi s good r entries) (h1 : lo' ≤ lo) (h2 : hi ≤ hi') :
    PeekRun k lo' hi' s good r entries :=
  ⟨h.state, fun x hx => by
    obtain ⟨w, a, b, c, d⟩ := h.touch x hx
    exact ⟨w, a, b, by omega, by omega⟩, h.outcome, h.clean⟩

theorem readWords_run (k : Kernel) (n : Nat) : ∀ (a : Nat) (data : Bytes) (s : MemSt),
    a % k.arch.W = 0 →
    ∃ entries, PeekRun k (a + k.arch.W - 1) (a + n) s (data ++ bytesAt s.mem a n) (readWords k a n data s) entries := by
  induction n using Nat.strongRecOn with
  | _ n ih =>
    intro a data s ha
    have hW := W_pos k.arch
    rw [readWords]
    by_cases h0 : n = 0
    · subst h0
      simp only [dite_true]
      exact ⟨[], by simp, by simp, Or.inl (by simp), by simp⟩
    · simp only [h0, dite_false]
      by_cases he : k.peekErr s.log a = 0
      · rw [Py.bind_eq_ok (readWord_ok k a s ha he)]
        rw [Py.bind_eq_ok (a := bytesAt s.mem a k.arch.W)
          (by unfold liftE; rw [word2bytes_native _ _ (bytesAt_length ..)])]
        by_cases hs : n < k.arch.W
        · rw [if_pos hs]
          refine ⟨[] ++ [.peek a], PeekRun.cons ?_ ha (by omega) (by omega) he⟩
          refine ⟨by simp, by simp, Or.inl ?_, by simp⟩
          simp [bytesAt_take, Nat.min_eq_left (Nat.le_of_lt hs)]
        · rw [if_neg hs]
          obtain ⟨entries, h⟩ := ih (n - k.arch.W) (by omega) (a + k.arch.W)
            (data ++ bytesAt s.mem a k.arch.W) { s with log := .peek a :: s.log } (by rw [Nat.add_mod_right]; exact ha)
          refine ⟨entries ++ [.peek a], PeekRun.cons ?_ ha (by omega) (by omega) he⟩
          have hh : data ++ bytesAt s.mem a n =
              data ++ bytesAt s.mem a k.arch.W ++ bytesAt s.mem (a + k.arch.W) (n - k.arch.W) := by
            rw [List.append_assoc, ← bytesAt_add]; congr 2; omega
          rw [hh]
          exact h.mono (by omega) (by omega)
      · rw [Py.bind_eq_error (readWord_err k a s ha he)]
        exact ⟨[.peek a], PeekRun.fail ha (by omega) (by omega) he⟩

theorem readBytesPeek_run (k : Kernel) (a n : Nat) (s : MemSt) :
    ∃ entries, PeekRun k a (a + max n 1) s (bytesAt s.mem a n) (readBytesPeek k a n s) entries := by
  have hW := W_pos k.arch
  have hlt := Nat.mod_lt a hW
  have hle := Nat.mod_le a k.arch.W
  unfold readBytesPeek
  by_cases h0 : a % k.arch.W = 0
  · simp only [h0, ne_eq, not_true_eq_false, if_false]
    obtain ⟨entries, h⟩ := readWords_run k n a [] s h0
    exact ⟨entries, h.mono (by omega) (by omega)⟩
  · simp only [h0, ne_eq, not_false_eq_true, if_true]
    have hal : (a - a % k.arch.W) % k.arch.W = 0 := Nat.sub_mod_eq_zero_of_mod_eq (by simp)
    by_cases he : k.peekErr s.log (a - a % k.arch.W) = 0
    · rw [Py.bind_eq_ok (readWord_ok k _ s hal he)]
      rw [Py.bind_eq_ok (a := bytesAt s.mem (a - a % k.arch.W) k.arch.W)
        (by unfold liftE; rw [word2bytes_native _ _ (bytesAt_length ..)])]
      rw [bytesAt_slice _ _ _ _ _ (by omega) (by omega)]
      obtain ⟨entries, h⟩ := readWords_run k (n - min (k.arch.W - a % k.arch.W) n)
        (a - a % k.arch.W + k.arch.W) (bytesAt s.mem (a - a % k.arch.W + a % k.arch.W)
          (a % k.arch.W + min (k.arch.W - a % k.arch.W) n - a % k.arch.W))
        { s with log := .peek (a - a % k.arch.W) :: s.log } (by rw [Nat.add_mod, hal]; simp)
      refine ⟨entries ++ [.peek (a - a % k.arch.W)], PeekRun.cons ?_ hal (by omega) (by omega) he⟩
      have hh : bytesAt s.mem a n = bytesAt s.mem (a - a % k.arch.W + a % k.arch.W)
          (a % k.arch.W + min (k.arch.W - a % k.arch.W) n - a % k.arch.W) ++
          bytesAt s.mem (a - a % k.arch.W + k.arch.W) (n - min (k.arch.W - a % k.arch.W) n) := by
        rw [Nat.sub_add_cancel hle, Nat.add_sub_cancel_left]
        by_cases hn : n ≤ k.arch.W - a % k.arch.W
        · rw [Nat.min_eq_right hn]; simp
        · have hm : min (k.arch.W - a % k.arch.W) n = k.arch.W - a % k.arch.W :=
            Nat.min_eq_left (by omega)
          rw [hm]
          have e1 : a - a % k.arch.W + k.arch.W = a + (k.arch.W - a % k.arch.W) := by omega
          rw [e1, ← bytesAt_add]; congr 1; omega
      rw [hh]
      refine ⟨h.state, ?_, h.outcome, h.clean⟩
      intro x hx
      obtain ⟨w, e1, e2, e3, e4⟩ := h.touch x hx
      exact ⟨w, e1, e2, by omega, by omega⟩
    · rw [Py.bind_eq_error (readWord_err k _ s hal he)]
      exact ⟨[.peek _], PeekRun.fail hal (by omega) (by omega) he⟩

end PT
