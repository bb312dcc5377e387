import Verif.Model.Search
import Verif.Spec.Search
import Verif.Lemmas.CString

namespace PT

theorem prefix_iff_occurs (m : Nat → Byte) (pat : Bytes) (a n i : Nat) (hi : i ≤ n) :
    pat.isPrefixOf ((bytesAt m a n).drop i) = true ↔
      i + pat.length ≤ n ∧ Spec.Occurs m pat (a + i) := by
  rw [List.isPrefixOf_iff_prefix, bytesAt_drop]
  constructor
  · intro h
    have hl := h.length_le
    simp at hl
    refine ⟨by omega, fun j hj => ?_⟩
    have := h.getElem hj
    rw [this]; simp
  · rintro ⟨h1, h2⟩
    have : pat = (bytesAt m (a + i) (n - i)).take pat.length := by
      apply List.ext_getElem
      · simp; omega
      · intro j h3 h4
        simp [h2 j h3]
    rw [this]
    exact List.take_prefix _ _

theorem pyFind_some {m : Nat → Byte} {pat : Bytes} {a n o : Nat}
    (h : pyFind (bytesAt m a n) pat = some o) :
    o + pat.length ≤ n ∧ Spec.Occurs m pat (a + o) ∧ ∀ q, q < o → ¬ Spec.Occurs m pat (a + q) := by
  unfold pyFind at h
  rw [List.find?_range_eq_some] at h
  obtain ⟨h1, h2, h3⟩ := h
  simp at h2
  obtain ⟨h4, h5⟩ := (prefix_iff_occurs m pat a n o (by omega)).1 h1
  refine ⟨h4, h5, fun q hq hc => ?_⟩
  have := h3 q hq
  rw [(prefix_iff_occurs m pat a n q (by omega)).2 ⟨by omega, hc⟩] at this
  cases this

theorem pyFind_none {m : Nat → Byte} {pat : Bytes} {a n : Nat}
    (h : pyFind (bytesAt m a n) pat = none) :
    ∀ q, q + pat.length ≤ n → ¬ Spec.Occurs m pat (a + q) := by
  unfold pyFind at h
  rw [List.find?_range_eq_none] at h
  intro q hq hc
  have := h q (by simp; omega)
  rw [(prefix_iff_occurs m pat a n q (by omega)).2 ⟨by omega, hc⟩] at this
  cases this

theorem searchBufLen_le (pat : Bytes) : pat.length ≤ searchBufLen pat ∧ 0 < searchBufLen pat := by
  unfold searchBufLen; split <;> omega

theorem Spec.IsScan.weaken {m : Nat → Byte} {pat : Bytes} {hi lo lo' : Nat} {l : List Nat}
    (h : Spec.IsScan m pat hi lo' l) (hle : lo ≤ lo')
    (hn : ∀ q, lo ≤ q → q < lo' → q + pat.length ≤ hi → ¬ Spec.Occurs m pat q) :
    Spec.IsScan m pat hi lo l := by
  cases l with
  | nil =>
    intro q h1 h2
    by_cases hq : q < lo'
    · exact hn q h1 hq h2
    · exact h q (by omega) h2
  | cons p rest =>
    obtain ⟨h1, h2, h3, h4, h5⟩ := h
    refine ⟨by omega, h2, h3, ?_, h5⟩
    intro q h6 h7
    by_cases hq : q < lo'
    · exact hn q h6 hq (by omega)
    · exact h4 q (by omega) h7

theorem Spec.AreOccurrences.weaken {m : Nat → Byte} {pat : Bytes} {hi lo lo' : Nat} {l : List Nat}
    (h : Spec.AreOccurrences m pat hi lo' l) (hle : lo ≤ lo') : Spec.AreOccurrences m pat hi lo l := by
  cases l with
  | nil => trivial
  | cons p rest => obtain ⟨h1, h2⟩ := h; exact ⟨by omega, h2⟩

/-- Complete reads: the loop is the scan. -/
theorem searchLoop_scan (k : Kernel) (pat : Bytes) (buf : Nat) (hb : pat.length ≤ buf) (hp : 0 < pat.length)
    (m : Nat → Byte) (start stop : Nat)
    (hread : ∀ s a n, s.mem = m → start ≤ a → a + n ≤ stop → (readBytes k a n s).1 = .ok (bytesAt m a n))
    (fuel : Nat) : ∀ (covered remaining : Nat) (s : MemSt), s.mem = m → start ≤ covered →
    covered + remaining = stop → remaining < fuel →
    let r := searchLoop k pat buf fuel covered remaining s
    r.outcome = .ok () ∧ Spec.IsScan m pat stop covered r.yields ∧ r.state.mem = m := by
  induction fuel with
  | zero => intro c r s _ _ _ h; omega
  | succ fuel ih =>
    intro c rem s hs h1 h2 h3 r
    have hr : r = searchLoop k pat buf (fuel + 1) c rem s := rfl
    rw [searchLoop] at hr
    by_cases hlt : rem < pat.length
    · rw [if_pos hlt] at hr
      rw [hr]
      exact ⟨rfl, fun q h4 h5 => by omega, hs⟩
    · rw [if_neg hlt] at hr
      dsimp only at hr
      generalize hq : (if rem > buf then buf else rem) = requested at hr
      have hreq : pat.length ≤ requested ∧ requested ≤ rem := by
        rw [← hq]; split <;> omega
      have hrd := hread s c requested hs h1 (by omega)
      have hm := (readBytes_readRun k c requested s).mem
      cases hx : readBytes k c requested s with
      | mk res s1 =>
        rw [hx] at hrd hm hr
        have hm1 : s1.mem = m := by rw [← hs]; exact hm
        have hrd : res = _ := hrd
        subst hrd
        dsimp only at hr
        cases hf : pyFind (bytesAt m c requested) pat with
        | none =>
          rw [hf] at hr
          dsimp only at hr
          have hnone := pyFind_none hf
          obtain ⟨e1, e2, e3⟩ := ih (c + (requested - pat.length + 1)) (rem - (requested - pat.length + 1)) s1
            hm1 (by omega) (by omega) (by omega)
          rw [hr]
          refine ⟨e1, e2.weaken (by omega) ?_, e3⟩
          intro q h4 h5 h6
          have := hnone (q - c) (by omega)
          rwa [show c + (q - c) = q by omega] at this
        | some o =>
          rw [hf] at hr
          dsimp only at hr
          obtain ⟨f1, f2, f3⟩ := pyFind_some hf
          obtain ⟨e1, e2, e3⟩ := ih (c + (o + pat.length)) (rem - (o + pat.length)) s1
            hm1 (by omega) (by omega) (by omega)
          rw [hr]
          refine ⟨e1, ⟨by omega, by omega, f2, ?_, ?_⟩, e3⟩
          · intro q h4 h5
            have := f3 (q - c) (by omega)
            rwa [show c + (q - c) = q by omega] at this
          · rw [Nat.add_assoc]; exact e2

/-- Any kernel: only true occurrences are reported. -/
theorem searchLoop_sound (k : Kernel) (pat : Bytes) (buf : Nat) (hb : pat.length ≤ buf)
    (m : Nat → Byte) (stop : Nat) (fuel : Nat) :
    ∀ (covered remaining : Nat) (s : MemSt), s.mem = m → covered + remaining = stop →
    let r := searchLoop k pat buf fuel covered remaining s
    Spec.AreOccurrences m pat stop covered r.yields ∧ r.state.mem = m := by
  induction fuel with
  | zero => intro c r s hs _; exact ⟨trivial, hs⟩
  | succ fuel ih =>
    intro c rem s hs h2 r
    have hr : r = searchLoop k pat buf (fuel + 1) c rem s := rfl
    rw [searchLoop] at hr
    by_cases hlt : rem < pat.length
    · rw [if_pos hlt] at hr
      rw [hr]
      exact ⟨trivial, hs⟩
    · rw [if_neg hlt] at hr
      dsimp only at hr
      generalize hq : (if rem > buf then buf else rem) = requested at hr
      have hreq : pat.length ≤ requested ∧ requested ≤ rem := by
        rw [← hq]; split <;> omega
      have hrun := readBytes_readRun k c requested s
      cases hx : readBytes k c requested s with
      | mk res s1 =>
        rw [hx] at hrun hr
        have hm : s1.mem = m := by rw [← hs]; exact hrun.mem
        cases res with
        | error e => rw [hr]; exact ⟨trivial, hm⟩
        | ok data =>
          dsimp only at hr
          obtain ⟨hd1, hd2⟩ := hrun.result data rfl
          rw [hs] at hd2
          cases hf : pyFind data pat with
          | none =>
            rw [hf] at hr
            dsimp only at hr
            by_cases hp : 0 < pat.length
            · obtain ⟨e2, e3⟩ := ih (c + (requested - pat.length + 1)) (rem - (requested - pat.length + 1)) s1
                hm (by omega)
              rw [hr]
              exact ⟨e2.weaken (by omega), e3⟩
            · -- the empty pattern is always found
              exfalso
              have : pat = [] := List.eq_nil_of_length_eq_zero (by omega)
              subst this
              simp [pyFind, List.isPrefixOf] at hf
              exact absurd (hf 0) (by simp)
          | some o =>
            rw [hf] at hr
            dsimp only at hr
            rw [hd2] at hf
            obtain ⟨f1, f2, f3⟩ := pyFind_some hf
            obtain ⟨e2, e3⟩ := ih (c + (o + pat.length)) (rem - (o + pat.length)) s1
              hm (by omega)
            rw [hr]
            refine ⟨⟨by omega, by omega, f2, ?_⟩, e3⟩
            rw [Nat.add_assoc]; exact e2

/-- Any kernel: a non-empty pattern makes the loop advance. -/
theorem searchLoop_terminates (k : Kernel) (pat : Bytes) (buf : Nat) (hp : 0 < pat.length)
    (fuel : Nat) : ∀ (covered remaining : Nat) (s : MemSt), remaining < fuel →
    (searchLoop k pat buf fuel covered remaining s).outcome ≠ .error .diverge := by
  induction fuel with
  | zero => intro c rem s h; omega
  | succ fuel ih =>
    intro c rem s h
    rw [searchLoop]
    by_cases hlt : rem < pat.length
    · rw [if_pos hlt]; intro h; cases h
    · rw [if_neg hlt]
      dsimp only
      have hrun := readBytes_readRun k c (if rem > buf then buf else rem) s
      cases hx : readBytes k c (if rem > buf then buf else rem) s with
      | mk res s1 =>
        rw [hx] at hrun
        cases res with
        | error e =>
          dsimp only
          intro h; injection h with h; subst h
          rcases hrun.error _ rfl with ⟨x, h⟩ | ⟨h, _⟩ <;> cases h
        | ok data =>
          dsimp only
          split
          · exact ih _ _ _ (by omega)
          · exact ih _ _ _ (by omega)

theorem searchLoop_fuel_mono (k : Kernel) (pat : Bytes) (buf : Nat) (fuel : Nat) :
    ∀ (more covered remaining : Nat) (s : MemSt),
    (searchLoop k pat buf fuel covered remaining s).outcome ≠ .error .diverge →
    searchLoop k pat buf (fuel + more) covered remaining s = searchLoop k pat buf fuel covered remaining s := by
  induction fuel with
  | zero => intro more c rem s h; exact absurd rfl h
  | succ fuel ih =>
    intro more c rem s
    rw [show fuel + 1 + more = (fuel + more) + 1 by omega, searchLoop, searchLoop]
    by_cases hlt : rem < pat.length
    · rw [if_pos hlt, if_pos hlt]; intro _; rfl
    · rw [if_neg hlt, if_neg hlt]
      dsimp only
      cases hx : readBytes k c (if rem > buf then buf else rem) s with
      | mk res s1 =>
        cases res with
        | error e => intro _; rfl
        | ok data =>
          dsimp only
          cases pyFind data pat with
          | none => exact ih _ _ _ _
          | some o =>
            dsimp only
            intro h
            rw [ih _ _ _ _ h]

theorem Spec.IsScan.unique {m : Nat → Byte} {pat : Bytes} {hi : Nat} (l : List Nat) :
    ∀ (l' : List Nat) (lo : Nat), Spec.IsScan m pat hi lo l → Spec.IsScan m pat hi lo l' → l = l' := by
  induction l with
  | nil =>
    intro l' lo h h'
    cases l' with
    | nil => rfl
    | cons p r => obtain ⟨h1, h2, h3, _⟩ := h'; exact absurd h3 (h p h1 h2)
  | cons p r ih =>
    intro l' lo h h'
    obtain ⟨h1, h2, h3, h4, h5⟩ := h
    cases l' with
    | nil => exact absurd h3 (h' p h1 h2)
    | cons p' r' =>
      obtain ⟨g1, g2, g3, g4, g5⟩ := h'
      have : p = p' := by
        rcases Nat.lt_trichotomy p p' with hc | hc | hc
        · exact absurd h3 (g4 p h1 hc)
        · exact hc
        · exact absurd g3 (h4 p' g1 hc)
      subst this
      rw [ih r' _ h5 g5]

theorem Spec.IsScan.covers {m : Nat → Byte} {pat : Bytes} {hi : Nat} (l : List Nat) :
    ∀ lo, Spec.IsScan m pat hi lo l → ∀ q, lo ≤ q → q + pat.length ≤ hi → Spec.Occurs m pat q →
    ∃ p ∈ l, p ≤ q ∧ q < p + pat.length := by
  induction l with
  | nil => intro lo h q h1 h2 h3; exact absurd h3 (h q h1 h2)
  | cons p r ih =>
    intro lo h q h1 h2 h3
    obtain ⟨g1, g2, g3, g4, g5⟩ := h
    by_cases hc : q < p
    · exact absurd h3 (g4 q h1 hc)
    · by_cases hc' : q < p + pat.length
      · exact ⟨p, by simp, by omega, hc'⟩
      · obtain ⟨p', h, h'⟩ := ih _ g5 q (by omega) h2 h3
        exact ⟨p', by simp [h], h'⟩

end PT
