import Verif.Lemmas.Search
import Verif.Props.Memory

/-! Property theorems C14–C15: `MemoryMapping.search`. -/

namespace PT.Props
open PT

/-! ## C14 — exactly the non-overlapping occurrences -/

/-- When every read inside the mapping is answered completely, the search ends normally and reports exactly
what one left-to-right scan of the whole mapping reports. The statement does not mention the chunk size. -/
theorem C14_scan (k : Kernel) (pat : Bytes) (hp : pat ≠ []) (start stop : Nat) (hle : start ≤ stop) (s : MemSt)
    (hread : ∀ s' a n, s'.mem = s.mem → start ≤ a → a + n ≤ stop →
      ∃ d, (readBytes k a n s').1 = .ok d ∧ d.length = n) (more : Nat) :
    let r := search k pat (stop - start + 1 + more) start stop s
    r.outcome = .ok () ∧ Spec.IsScan s.mem pat stop start r.yields ∧ r.state.mem = s.mem := by
  have hpos : 0 < pat.length := List.length_pos_iff.2 hp
  refine searchLoop_scan k pat (searchBufLen pat) (searchBufLen_le pat).1 hpos s.mem start stop ?_ _ start
    (stop - start) s rfl (Nat.le_refl _) (by omega) (by omega)
  intro s' a n h1 h2 h3
  obtain ⟨d, h4, h5⟩ := hread s' a n h1 h2 h3
  obtain ⟨_, h6⟩ := (readBytes_readRun k a n s').result d h4
  rw [h4, h6, h5, h1]

/-- The scan determines the reported list. -/
theorem C14_unique (mem : Nat → Byte) (pat : Bytes) (hi lo : Nat) (l l' : List Nat)
    (h : Spec.IsScan mem pat hi lo l) (h' : Spec.IsScan mem pat hi lo l') : l = l' :=
  h.unique l l' lo h'

/-- "AAB" at 2 and at 5 in a text of seven letters, for examples. -/
def exText : Nat → Byte := fun x => if x = 4 ∨ x = 7 then 66 else if x < 8 then 65 else 0

theorem exText_scan : Spec.IsScan exText [65, 65, 66] 8 0 [2, 5] := by
  have hocc : ∀ q, q + 3 ≤ 8 → Spec.Occurs exText [65, 65, 66] q → q = 2 ∨ q = 5 := by
    intro q hq h
    have h2 := h 2 (by decide)
    simp only [exText] at h2
    split at h2
    · omega
    · split at h2 <;> simp at h2
  refine ⟨by decide, by decide, by unfold Spec.Occurs; decide, fun q h1 h2 h => ?_, by decide, by decide,
    by unfold Spec.Occurs; decide, fun q h1 h2 h => ?_, fun q h1 h2 h => ?_⟩
  · rcases hocc q (by omega) h with h | h <;> omega
  · simp at h1; rcases hocc q (by omega) h with h | h <;> omega
  · simp at h1 h2; rcases hocc q (by omega) h with h | h <;> omega

example := C14_unique exText [65, 65, 66] 8 0 [2, 5] [2, 5] exText_scan exText_scan

/-- Every occurrence inside the mapping overlaps a reported one. -/
theorem C14_covers (mem : Nat → Byte) (pat : Bytes) (hi lo : Nat) (l : List Nat)
    (h : Spec.IsScan mem pat hi lo l) (q : Nat) (h1 : lo ≤ q) (h2 : q + pat.length ≤ hi)
    (h3 : Spec.Occurs mem pat q) : ∃ p ∈ l, p ≤ q ∧ q < p + pat.length :=
  h.covers l lo q h1 h2 h3

example := C14_covers exText [65, 65, 66] 8 0 [2, 5] exText_scan 5 (by decide) (by decide)
  (by unfold Spec.Occurs; decide)

/-- Whatever the kernel answers (errors, short replies), each reported address is a true occurrence inside the
mapping, in increasing order and without overlap, and memory is untouched. -/
theorem C14_sound (k : Kernel) (pat : Bytes) (fuel start stop : Nat) (hle : start ≤ stop) (s : MemSt) :
    let r := search k pat fuel start stop s
    Spec.AreOccurrences s.mem pat stop start r.yields ∧ r.state.mem = s.mem :=
  searchLoop_sound k pat (searchBufLen pat) (searchBufLen_le pat).1 s.mem stop fuel start (stop - start) s rfl
    (by omega)

-- "AAAAA" at 0..4 scanned for "AA": positions 0 and 2, not 1 or 3
example : (search exKernel [65, 65] 6 0 5 { mem := fun _ => 65 }).yields = [0, 2] := by decide +kernel
-- a kernel that can read everything meets the hypothesis of C14_scan
example (s' : MemSt) (a n : Nat) (h : a < 2 ^ 63) : ∃ d, (readBytes exKernel a n s').1 = .ok d ∧ d.length = n :=
  ⟨_, readBytes_ok exKernel a n s' (fun _ _ _ _ _ => rfl) (fun _ => ⟨n, rfl, Or.inr (Nat.le_refl _)⟩) h,
    bytesAt_length _ _ _⟩

/-! ## C15 — termination -/

/-- For a non-empty pattern at most `stop - start + 1` reads are made, whatever the kernel answers. Missing for
the full statement: the empty pattern. -/
theorem C15_nonempty_partial (k : Kernel) (pat : Bytes) (hp : pat ≠ []) (start stop more : Nat) (s : MemSt) :
    (search k pat (stop - start + 1) start stop s).outcome ≠ .error .diverge ∧
    search k pat (stop - start + 1 + more) start stop s = search k pat (stop - start + 1) start stop s := by
  have hpos : 0 < pat.length := List.length_pos_iff.2 hp
  have h := searchLoop_terminates k pat (searchBufLen pat) hpos (stop - start + 1) start (stop - start) s
    (by omega)
  exact ⟨h, searchLoop_fuel_mono k pat _ _ more start _ s h⟩

example := C15_nonempty_partial exKernel [65, 65] (by decide) 0 5 9 { mem := fun _ => 65 }

/-- The empty pattern is found at offset 0 for ever: no number of iterations is enough, as long as reads do not
fail. -/
theorem C15_refuted : ¬ ∀ (k : Kernel) (pat : Bytes) (start stop : Nat) (s : MemSt),
    ∃ fuel, (search k pat fuel start stop s).outcome ≠ .error .diverge := by
  intro h
  obtain ⟨fuel, hf⟩ := h exKernel [] 0 4 exOnes
  apply hf
  have key : ∀ fuel (s : MemSt), (searchLoop exKernel [] (searchBufLen []) fuel 0 4 s).outcome
      = .error .diverge := by
    intro fuel
    induction fuel with
    | zero => intro s; rfl
    | succ fuel ih =>
      intro s
      rw [searchLoop]
      simp only [List.length_nil, Nat.not_lt_zero, if_false]
      have hb : (if 4 > searchBufLen [] then searchBufLen [] else 4) = 4 := rfl
      rw [hb]
      have hrd : (readBytes exKernel 0 4 s).1 = .ok (bytesAt s.mem 0 4) :=
        readBytes_ok exKernel 0 4 s (fun _ _ _ _ _ => rfl) (fun _ => ⟨4, rfl, Or.inr (Nat.le_refl _)⟩) (by decide)
      cases hx : readBytes exKernel 0 4 s with
      | mk res s1 =>
        rw [hx] at hrd
        have hrd : res = _ := hrd
        subst hrd
        have hfd : pyFind (bytesAt s.mem 0 4) [] = some 0 := by
          unfold pyFind
          rw [List.find?_range_eq_some]
          exact ⟨rfl, by simp, fun j hj => absurd hj (by omega)⟩
        simp only [hfd]
        exact ih s1
  exact key fuel exOnes

end PT.Props
