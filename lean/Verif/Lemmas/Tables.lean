/-! Checks of sorted tables in linear time, and what they establish. -/

namespace PT

/-- Keys increase. -/
def increasing : List (Nat × String) → Bool
  | [] => true
  | [_] => true
  | p :: q :: l => Nat.blt p.1 q.1 && increasing (q :: l)

theorem increasing_lt : ∀ (l : List (Nat × String)) (p : Nat × String), increasing (p :: l) = true → ∀ q ∈ l, p.1 < q.1 := by
  intro l
  induction l with
  | nil => intro p _ q hq; cases hq
  | cons r l ih =>
    intro p h q hq
    rw [increasing, Bool.and_eq_true] at h
    have hpr : p.1 < r.1 := Nat.blt_eq ▸ h.1
    rcases List.mem_cons.1 hq with rfl | hq
    · exact hpr
    · exact Nat.lt_trans hpr (ih r h.2 q hq)

theorem increasing_tail {p : Nat × String} {l : List (Nat × String)} (h : increasing (p :: l) = true) : increasing l = true := by
  cases l with
  | nil => rfl
  | cons q l => rw [increasing, Bool.and_eq_true] at h; exact h.2

theorem increasing_unique : ∀ (l : List (Nat × String)), increasing l = true → ∀ n a b, (n, a) ∈ l → (n, b) ∈ l → a = b := by
  intro l
  induction l with
  | nil => intro _ n a b h; cases h
  | cons p l ih =>
    intro h n a b ha hb
    have hlt := increasing_lt l p h
    rcases List.mem_cons.1 ha with ha | ha
    · rcases List.mem_cons.1 hb with hb | hb
      · rw [← ha] at hb
        injection hb with _ hb
        exact hb.symm
      · have := hlt _ hb
        rw [← ha] at this
        exact absurd this (Nat.lt_irrefl _)
    · rcases List.mem_cons.1 hb with hb | hb
      · have := hlt _ ha
        rw [← hb] at this
        exact absurd this (Nat.lt_irrefl _)
      · exact ih (increasing_tail h) n a b ha hb

/-- Both tables name a number alike, unless it is excepted. The first argument bounds the steps. -/
def agree (ex : Nat → Bool) : Nat → List (Nat × String) → List (Nat × String) → Bool
  | _, [], _ => true
  | _, _ :: _, [] => true
  | 0, _ :: _, _ :: _ => false
  | f + 1, p :: A, q :: B =>
    if Nat.blt p.1 q.1 then agree ex f A (q :: B)
    else if Nat.blt q.1 p.1 then agree ex f (p :: A) B
    else (ex p.1 || decide (p.2 = q.2)) && agree ex f A B

theorem agree_spec (ex : Nat → Bool) : ∀ (f : Nat) (A B : List (Nat × String)), increasing A = true → increasing B = true →
    agree ex f A B = true → ∀ n a b, (n, a) ∈ A → (n, b) ∈ B → ex n = false → a = b := by
  intro f
  induction f with
  | zero =>
    intro A B _ _ h n a b ha hb
    cases A with
    | nil => cases ha
    | cons p A => cases B with
      | nil => cases hb
      | cons q B => cases h
  | succ f ih =>
    intro A B hA hB h n a b ha hb he
    cases A with
    | nil => cases ha
    | cons p A => cases B with
      | nil => cases hb
      | cons q B =>
        rw [agree] at h
        by_cases h1 : Nat.blt p.1 q.1 = true
        · rw [if_pos h1] at h
          have h1' : p.1 < q.1 := Nat.blt_eq ▸ h1
          rcases List.mem_cons.1 ha with ha | ha
          · rcases List.mem_cons.1 hb with hb | hb
            · rw [← ha, ← hb] at h1'; exact absurd h1' (Nat.lt_irrefl _)
            · have := Nat.lt_trans h1' (increasing_lt B q hB _ hb)
              rw [← ha] at this; exact absurd this (Nat.lt_irrefl _)
          · exact ih A (q :: B) (increasing_tail hA) hB h n a b ha hb he
        · rw [if_neg h1] at h
          by_cases h2 : Nat.blt q.1 p.1 = true
          · rw [if_pos h2] at h
            have h2' : q.1 < p.1 := Nat.blt_eq ▸ h2
            rcases List.mem_cons.1 hb with hb | hb
            · rcases List.mem_cons.1 ha with ha | ha
              · rw [← ha, ← hb] at h2'; exact absurd h2' (Nat.lt_irrefl _)
              · have := Nat.lt_trans h2' (increasing_lt A p hA _ ha)
                rw [← hb] at this; exact absurd this (Nat.lt_irrefl _)
            · exact ih (p :: A) B hA (increasing_tail hB) h n a b ha hb he
          · rw [if_neg h2, Bool.and_eq_true] at h
            have e1 : ¬ p.1 < q.1 := fun x => h1 (Nat.blt_eq ▸ x)
            have e2 : ¬ q.1 < p.1 := fun x => h2 (Nat.blt_eq ▸ x)
            have e : p.1 = q.1 := by omega
            rcases List.mem_cons.1 ha with ha | ha
            · rcases List.mem_cons.1 hb with hb | hb
              · have h3 := h.1
                rw [← ha, ← hb] at h3
                simpa [he] using h3
              · have := increasing_lt B q hB _ hb
                rw [← e, ← ha] at this
                exact absurd this (Nat.lt_irrefl _)
            · rcases List.mem_cons.1 hb with hb | hb
              · have := increasing_lt A p hA _ ha
                rw [e, ← hb] at this
                exact absurd this (Nat.lt_irrefl _)
              · exact ih A B (increasing_tail hA) (increasing_tail hB) h.2 n a b ha hb he

/-- The first table has every number of the second, unless it is excepted. -/
def covers (ex : Nat → Bool) : Nat → List (Nat × String) → List (Nat × String) → Bool
  | _, [], B => B.all fun q => ex q.1
  | _, _ :: _, [] => true
  | 0, _ :: _, _ :: _ => false
  | f + 1, p :: A, q :: B =>
    if Nat.blt p.1 q.1 then covers ex f A (q :: B)
    else if Nat.beq p.1 q.1 then covers ex f (p :: A) B
    else ex q.1 && covers ex f (p :: A) B

private theorem covers_nil (ex : Nat → Bool) (n : Nat) (b : String) (he : ex n = false) (B : List (Nat × String)) (f : Nat)
    (h : covers ex f [] B = true) : (n, b) ∉ B := by
  intro hb
  have h' : (B.all fun q => ex q.1) = true := by
    cases f <;> (rw [covers] at h; exact h)
  have := (List.all_eq_true.1 h') _ hb
  rw [he] at this
  cases this

theorem covers_spec (ex : Nat → Bool) : ∀ (f : Nat) (A B : List (Nat × String)), covers ex f A B = true →
    ∀ n b, (n, b) ∈ B → ex n = false → ∃ a, (n, a) ∈ A := by
  intro f
  induction f with
  | zero =>
    intro A B h n b hb he
    cases A with
    | nil => exact absurd hb (covers_nil ex n b he B 0 h)
    | cons p A => cases B with
      | nil => cases hb
      | cons q B => cases h
  | succ f ih =>
    intro A B h n b hb he
    cases A with
    | nil => exact absurd hb (covers_nil ex n b he B _ h)
    | cons p A => cases B with
      | nil => cases hb
      | cons q B =>
        rw [covers] at h
        by_cases h1 : Nat.blt p.1 q.1 = true
        · rw [if_pos h1] at h
          obtain ⟨a, ha⟩ := ih A (q :: B) h n b hb he
          exact ⟨a, List.mem_cons_of_mem _ ha⟩
        · rw [if_neg h1] at h
          by_cases h2 : Nat.beq p.1 q.1 = true
          · rw [if_pos h2] at h
            rcases List.mem_cons.1 hb with hb | hb
            · have := Nat.eq_of_beq_eq_true h2
              rw [← hb] at this
              have this : p.1 = n := this
              exact ⟨p.2, by rw [← this]; exact List.mem_cons_self⟩
            · exact ih (p :: A) B h n b hb he
          · rw [if_neg h2, Bool.and_eq_true] at h
            rcases List.mem_cons.1 hb with hb | hb
            · rw [← hb, he] at h; cases h.1
            · exact ih (p :: A) B h.2 n b hb he

end PT
