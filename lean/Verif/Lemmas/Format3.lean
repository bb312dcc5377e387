import Verif.Lemmas.Format2
import Verif.Lemmas.Py

namespace PT
open Spec

/-! ### Results -/

theorem pyDecInt_decInt (r : Int) : decInt (pyDecInt r) = some r := by
  cases r with
  | ofNat n =>
    have h : pyDecInt (Int.ofNat n) = pyDec n := rfl
    rw [h]
    have hd := decNumber_pyDec n
    have hm : ∀ t, pyDec n ≠ '-' :: t := by
      intro t e
      exact absurd (pyDec_isDigit n '-' (by rw [e]; simp)) (by decide)
    generalize pyDec n = t at hd hm
    unfold decInt
    split
    · rename_i t'; exact absurd rfl (hm t')
    · rw [hd]; rfl
  | negSucc n =>
    have h : pyDecInt (Int.negSucc n) = '-' :: pyDec (n + 1) := rfl
    rw [h]
    unfold decInt
    simp only
    rw [decNumber_pyDec]
    rfl

theorem pyDecInt_space (r : Int) : ' ' ∉ pyDecInt r := by
  have hd : ∀ n, ' ' ∉ pyDec n := fun n h => absurd (pyDec_isDigit n ' ' h) (by decide)
  cases r with
  | ofNat n => exact hd n
  | negSucc n =>
    have h : pyDecInt (Int.negSucc n) = '-' :: pyDec (n + 1) := rfl
    rw [h]
    intro h
    rcases List.mem_cons.1 h with h | h
    · cases h
    · exact hd _ h

/-- Two texts `x ++ rest` with no space in `x` and `rest` empty or starting with a space. -/
theorem space_inj {x y r r' : Str} (hx : ' ' ∉ x) (hy : ' ' ∉ y) (hr : r = [] ∨ r.head? = some ' ') (hr' : r' = [] ∨ r'.head? = some ' ')
    (h : x ++ r = y ++ r') : x = y := by
  have key : ∀ {x r : Str}, ' ' ∉ x → (r = [] ∨ r.head? = some ' ') → (x ++ r).takeWhile (· != ' ') = x := by
    intro x r hx hr
    have hall : ∀ c ∈ x, (c != ' ') = true := fun c hc => by
      have : c ≠ ' ' := fun e => hx (e ▸ hc)
      simpa using this
    rw [List.takeWhile_append_of_pos hall]
    rcases hr with rfl | hr
    · simp
    · cases r with
      | nil => simp
      | cons c r =>
        have hc : c = ' ' := by simpa using hr
        rw [List.takeWhile_cons_of_neg (by simp [hc]), List.append_nil]
  rw [← key hx hr, h, key hy hr']

/-! ### Arrays of strings -/

variable {σ : Type}

/-- The loop over an array whose first `k` words are pointers to strings. -/
theorem cstrArray_loop {a : Arch} {readWord : Nat → Py σ Nat} {cstr : Nat → Py σ Str} {I : σ → Prop} {word : Nat → Nat} {str : Nat → Str}
    (hw : ∀ p s, I s → ∃ s', readWord p s = (.ok (word p), s') ∧ I s')
    (hs : ∀ q s, I s → ∃ s', cstr q s = (.ok (str q), s') ∧ I s') (maxCount : Nat) :
    ∀ (ptrs : List Nat) (fuel address n : Nat) (s : σ), I s → (∀ p ∈ ptrs, p ≠ 0) →
      (∀ i (h : i < ptrs.length), word (address + i * a.W) = ptrs[i]) →
      (ptrs.length + n < maxCount → ptrs.length < fuel → word (address + ptrs.length * a.W) = 0 →
        ∃ s', cstrArrayLoop a readWord cstr maxCount fuel address n s = (.ok (ptrs.map str ++ [str 0]), s') ∧ I s') ∧
      (n < maxCount → ptrs.length + n = maxCount → ptrs.length ≤ fuel →
        ∃ s', cstrArrayLoop a readWord cstr maxCount fuel address n s =
          (.ok (ptrs.map str ++ ["(... more than ".toList ++ pyDec maxCount ++ " strings ...)".toList]), s') ∧ I s') := by
  intro ptrs
  induction ptrs with
  | nil =>
    intro fuel address n s hI _ _
    constructor
    · intro _ hf h0
      obtain ⟨f, rfl⟩ : ∃ f, fuel = f + 1 := ⟨fuel - 1, by simp at hf; omega⟩
      obtain ⟨s1, e1, i1⟩ := hw address s hI
      simp only [List.length_nil, Nat.zero_mul, Nat.add_zero] at h0
      rw [h0] at e1
      obtain ⟨s2, e2, i2⟩ := hs 0 s1 i1
      refine ⟨s2, ?_, i2⟩
      rw [cstrArrayLoop, Py.run_bind_ok e1, Py.run_bind_ok e2, if_pos rfl]
      rfl
    · intro h1 h2 _
      simp at h2; omega
  | cons p ptrs ih =>
    intro fuel address n s hI hp hi
    have hp0 : word address = p := by
      have := hi 0 (by simp)
      simpa using this
    have hpn : p ≠ 0 := hp p (by simp)
    have hi' : ∀ i (h : i < ptrs.length), word (address + a.W + i * a.W) = ptrs[i] := by
      intro i h
      have := hi (i + 1) (by simpa using h)
      rw [List.getElem_cons_succ] at this
      rw [← this]
      congr 1
      rw [Nat.add_mul]; omega
    obtain ⟨s1, e1, i1⟩ := hw address s hI
    rw [hp0] at e1
    obtain ⟨s2, e2, i2⟩ := hs p s1 i1
    have ih' := fun f => ih f (address + a.W) (n + 1) s2 i2 (fun q hq => hp q (List.mem_cons_of_mem _ hq)) hi'
    constructor
    · intro h1 hf h0
      simp only [List.length_cons] at h1 hf h0
      obtain ⟨f, rfl⟩ : ∃ f, fuel = f + 1 := ⟨fuel - 1, by omega⟩
      obtain ⟨s3, e3, i3⟩ := (ih' f).1 (by omega) (by omega) (by rw [← h0]; congr 1; rw [Nat.add_mul]; omega)
      refine ⟨s3, ?_, i3⟩
      rw [cstrArrayLoop, Py.run_bind_ok e1, Py.run_bind_ok e2, if_neg hpn, if_neg (by omega), Py.run_bind_ok e3]
      rfl
    · intro h1 h2 hf
      simp only [List.length_cons] at h2 hf
      obtain ⟨f, rfl⟩ : ∃ f, fuel = f + 1 := ⟨fuel - 1, by omega⟩
      by_cases hl : ptrs.length = 0
      · have : ptrs = [] := List.eq_nil_of_length_eq_zero hl
        subst this
        refine ⟨s2, ?_, i2⟩
        rw [cstrArrayLoop, Py.run_bind_ok e1, Py.run_bind_ok e2, if_neg hpn, if_pos (by omega)]
        rfl
      · obtain ⟨s3, e3, i3⟩ := (ih' f).2 (by omega) (by omega) (by omega)
        refine ⟨s3, ?_, i3⟩
        rw [cstrArrayLoop, Py.run_bind_ok e1, Py.run_bind_ok e2, if_neg hpn, if_neg (by omega), Py.run_bind_ok e3]
        rfl

/-- The loop ends by itself. -/
theorem cstrArray_ends {a : Arch} {readWord : Nat → Py σ Nat} {cstr : Nat → Py σ Str}
    (hw : ∀ p s, (readWord p s).1 ≠ .error .diverge) (hs : ∀ q s, (cstr q s).1 ≠ .error .diverge) (maxCount : Nat) :
    ∀ (fuel address n : Nat) (s : σ), maxCount ≤ n + fuel → fuel ≠ 0 →
      (cstrArrayLoop a readWord cstr maxCount fuel address n s).1 ≠ .error .diverge := by
  intro fuel
  induction fuel with
  | zero => intro _ _ _ _ h; exact absurd rfl h
  | succ fuel ih =>
    intro address n s hf _ h
    rw [cstrArrayLoop] at h
    cases e1 : readWord address s with
    | mk r1 s1 =>
    cases r1 with
    | error x =>
      rw [Py.run_bind_error e1] at h
      injection h with h
      exact hw address s (by rw [e1, h])
    | ok w =>
      rw [Py.run_bind_ok e1] at h
      cases e2 : cstr w s1 with
      | mk r2 s2 =>
      cases r2 with
      | error x =>
        rw [Py.run_bind_error e2] at h
        injection h with h
        exact hs w s1 (by rw [e2, h])
      | ok t =>
        rw [Py.run_bind_ok e2] at h
        by_cases h0 : w = 0
        · rw [if_pos h0] at h; cases h
        · rw [if_neg h0] at h
          by_cases hm : maxCount ≤ n + 1
          · rw [if_pos hm] at h; cases h
          · rw [if_neg hm] at h
            cases e3 : cstrArrayLoop a readWord cstr maxCount fuel (address + a.W) (n + 1) s2 with
            | mk r3 s3 =>
            cases r3 with
            | error x =>
              rw [Py.run_bind_error e3] at h
              exact ih (address + a.W) (n + 1) s2 (by omega) (by omega) (by rw [e3]; exact h)
            | ok l => rw [Py.run_bind_ok e3] at h; cases h

end PT
