import Verif.Lemmas.Format3

namespace PT
open Spec

/-- A name whose mask has a bit of the value that no earlier mask has is listed. -/
theorem readBits_complete : ∀ {pre : List (Nat × Str)} {e : Nat × Str} {post : List (Nat × Str)} {v i : Nat},
    v.testBit i = true → e.1.testBit i = true → (∀ p ∈ pre, p.1.testBit i = false) → e.2 ∈ readBits v (pre ++ e :: post) := by
  intro pre
  induction pre with
  | nil =>
    intro e post v i hv he _
    obtain ⟨mask, item⟩ := e
    rw [List.nil_append, readBits, if_neg]
    · simp
    · intro h
      have := and_eq_zero_iff.1 h i
      simp only at he
      rw [hv, he] at this
      cases this
  | cons p pre ih =>
    intro e post v i hv he hp
    obtain ⟨mask, item⟩ := p
    have hm : mask.testBit i = false := hp (mask, item) (by simp)
    have hp' : ∀ p ∈ pre, p.1.testBit i = false := fun p h => hp p (List.mem_cons_of_mem _ h)
    rw [List.cons_append, readBits]
    split
    · exact ih hv he hp'
    · refine List.mem_cons_of_mem _ (ih ?_ he hp')
      rw [testBit_clear, hv, hm]; rfl

/-- How the masks of a table relate to the constants of the kernel. -/
theorem single_of {table : List (Nat × Str)} {kernel : List (Str × Nat)} (n : Nat)
    (h : (table.all fun e => kernel.contains (e.2, e.1) && (List.range n).any fun k => e.1 == 2 ^ k) = true) :
    ∀ e ∈ table, (e.2, e.1) ∈ kernel ∧ ∃ k, e.1 = 2 ^ k := by
  intro e he
  have := List.all_eq_true.1 h e he
  rw [Bool.and_eq_true] at this
  refine ⟨by simpa using this.1, ?_⟩
  obtain ⟨k, _, hk⟩ := List.any_eq_true.1 this.2
  exact ⟨k, by simpa using hk⟩

/-- Every constant of the kernel has a bit that first occurs in the mask of its name. -/
theorem complete_of {table : List (Nat × Str)} {kernel : List (Str × Nat)} (n : Nat)
    (h : (kernel.all fun c => (List.range table.length).any fun j => (List.range n).any fun k =>
      (table[j]?.any fun e => e.2 == c.1 && e.1.testBit k) && c.2.testBit k && (table.take j).all fun p => !p.1.testBit k) = true)
    {v : Nat} {name : Str} {m : Nat} (hm : (name, m) ∈ kernel) (hs : v &&& m = m) : name ∈ readBits v table := by
  have := List.all_eq_true.1 h _ hm
  obtain ⟨j, hj, hjk⟩ := List.any_eq_true.1 this
  obtain ⟨k, _, hk⟩ := List.any_eq_true.1 hjk
  rw [Bool.and_eq_true, Bool.and_eq_true] at hk
  obtain ⟨⟨h1, h2⟩, h3⟩ := hk
  have hj : j < table.length := List.mem_range.1 hj
  rw [List.getElem?_eq_getElem hj] at h1
  have h1 : (table[j].2 == name && table[j].1.testBit k) = true := h1
  rw [Bool.and_eq_true] at h1
  obtain ⟨h1a, h1b⟩ := h1
  have hv : v.testBit k = true := by
    have := congrArg (Nat.testBit · k) hs
    simp only [Nat.testBit_and] at this
    rw [h2] at this
    simpa using this
  have ht : table = table.take j ++ table[j] :: table.drop (j + 1) := by
    rw [← List.drop_eq_getElem_cons hj, List.take_append_drop]
  have hname : table[j].2 = name := by simpa using h1a
  have := readBits_complete (pre := table.take j) (e := table[j]) (post := table.drop (j + 1)) hv h1b (fun p hp => by
    have := List.all_eq_true.1 h3 p hp
    simpa using this)
  rw [← ht, hname] at this
  exact this

theorem open_single : ∀ e ∈ openFlagsBitmask, e.2 ≠ "O_SYNC".toList → e.2 ≠ "O_TMPFILE".toList →
    (e.2, e.1) ∈ kernelOpen ∧ ∃ k, e.1 = 2 ^ k := by
  intro e he h1 h2
  have key := single_of (table := openFlagsBitmask.filter fun e => !(e.2 == "O_SYNC".toList || e.2 == "O_TMPFILE".toList))
    (kernel := kernelOpen) 32 (by decide +kernel) e
  refine key (List.mem_filter.2 ⟨he, ?_⟩)
  rw [beq_eq_false_iff_ne.2 h1, beq_eq_false_iff_ne.2 h2]
  rfl

theorem open_sync : ∀ e ∈ openFlagsBitmask, e.2 = "O_SYNC".toList → e.1 = 2 ^ 12 := by decide +kernel

theorem open_tmp {n : Nat} (hn : n < openFlagsBitmask.length) {e : Nat × Str} (he : openFlagsBitmask[n]? = some e)
    (ht : e.2 = "O_TMPFILE".toList) : e.1 = 2 ^ 22 + 2 ^ 16 ∧ (2 ^ 16, "O_DIRECTORY".toList) ∈ openFlagsBitmask.take n := by
  have h : ((List.range openFlagsBitmask.length).all fun n => openFlagsBitmask[n]?.all fun e =>
      !(e.2 == "O_TMPFILE".toList) || (e.1 == 2 ^ 22 + 2 ^ 16 && (openFlagsBitmask.take n).contains (2 ^ 16, "O_DIRECTORY".toList))) = true := by
    decide +kernel
  have h1 := List.all_eq_true.1 h n (List.mem_range.2 hn)
  rw [he] at h1
  have h2 : (!(e.2 == "O_TMPFILE".toList) || (e.1 == 2 ^ 22 + 2 ^ 16 && (openFlagsBitmask.take n).contains (2 ^ 16, "O_DIRECTORY".toList))) =
    true := h1
  rw [ht, beq_self_eq_true, Bool.not_true, Bool.false_or, Bool.and_eq_true] at h2
  exact ⟨beq_iff_eq.1 h2.1, List.contains_iff_mem.1 h2.2⟩

theorem and_mask_of_bits {v : Nat} (a b : Nat) (hab : b < a) (ha : v.testBit a = true) (hb : v.testBit b = true) :
    v &&& (2 ^ a + 2 ^ b) = 2 ^ a + 2 ^ b := by
  have hd : 2 ^ a + 2 ^ b = 2 ^ a ||| 2 ^ b := by
    have := Nat.two_pow_add_eq_or_of_lt (i := a) (b := 2 ^ b) (Nat.pow_lt_pow_right (by omega) hab) 1
    simpa using this
  rw [hd]
  apply Nat.eq_of_testBit_eq
  intro i
  rw [Nat.testBit_and, Nat.testBit_or, Nat.testBit_two_pow, Nat.testBit_two_pow]
  by_cases h1 : a = i
  · subst h1; simp [ha]
  · by_cases h2 : b = i
    · subst h2; simp [hb]
    · simp [h1, h2]

/-- The texts listed for open flags. -/
theorem open_shown {v : Nat} (hsync : v.testBit 12 = true → v.testBit 20 = true) (htmp : v.testBit 22 = true → v.testBit 16 = true)
    {t : Str} (ht : t ∈ readBits v openFlagsBitmask) : ShownFlag kernelOpen v t := by
  rcases readBits_mem ht with ⟨pre, e, post, c, h1, h2, h3, h4⟩ | ⟨r, h1, _, h2⟩
  · have he : e ∈ openFlagsBitmask := by rw [h1]; exact List.mem_append_right _ (List.mem_cons_self ..)
    subst h2
    by_cases hs : e.2 = "O_SYNC".toList
    · have hm := open_sync e he hs
      rw [hm] at h4
      have hb : v.testBit 12 = true := by
        have := congrArg (Nat.testBit · 12) (single_set h3 h4)
        simp only [Nat.testBit_and, Nat.testBit_two_pow_self, Bool.and_true] at this
        exact this
      refine Or.inl ⟨2 ^ 20 + 2 ^ 12, ?_, and_mask_of_bits 20 12 (by omega) (hsync hb) hb⟩
      rw [hs]; decide +kernel
    · by_cases ht' : e.2 = "O_TMPFILE".toList
      · have hlen : pre.length < openFlagsBitmask.length := by rw [h1, List.length_append, List.length_cons]; omega
        have hget : openFlagsBitmask[pre.length]? = some e := by rw [h1, List.getElem?_append_right (Nat.le_refl _)]; simp
        obtain ⟨hm, hd⟩ := open_tmp hlen hget ht'
        have hpre : openFlagsBitmask.take pre.length = pre := by rw [h1, List.take_left]
        rw [hpre] at hd
        have hb : v.testBit 22 = true := by
          by_contra hb
          apply h4
          rw [and_eq_zero_iff]
          intro i
          rw [hm, h3 i]
          by_cases h22 : i = 22
          · subst h22
            rw [Bool.eq_false_iff.2 hb]; rfl
          · by_cases h16 : i = 16
            · subst h16
              have : pre.any (fun e => e.1.testBit 16) = true := List.any_eq_true.2 ⟨_, hd, by decide⟩
              rw [this, Bool.not_true, Bool.and_false]; rfl
            · have : (2 ^ 22 + 2 ^ 16 : Nat).testBit i = false := by
                have hd : (2 ^ 22 + 2 ^ 16 : Nat) = 2 ^ 22 ||| 2 ^ 16 := by decide
                rw [hd, Nat.testBit_or, Nat.testBit_two_pow, Nat.testBit_two_pow, decide_eq_false (by omega), decide_eq_false (by omega)]
                rfl
              rw [this, Bool.and_false]
        refine Or.inl ⟨2 ^ 22 + 2 ^ 16, ?_, and_mask_of_bits 22 16 (by omega) hb (htmp hb)⟩
        rw [ht']; decide +kernel
      · obtain ⟨hk, k, hm⟩ := open_single e he hs ht'
        refine Or.inl ⟨e.1, hk, ?_⟩
        rw [hm] at h4 ⊢
        exact single_set h3 h4
  · exact Or.inr ⟨r, h2, rest_subset h1⟩

/-- The rest of the table after the access mode. -/
def openRest : List (Nat × Str) := openFlagsBitmask.drop 2

theorem openRest_names : ∀ e ∈ openRest, e.2 ≠ "O_WRONLY".toList ∧ e.2 ≠ "O_RDWR".toList := by decide +kernel

theorem openRest_no {v : Nat} {x : Str} (h : x ∈ readBits v openRest) : ¬ (x = "O_WRONLY".toList ∨ x = "O_RDWR".toList) := by
  intro hn
  rcases readBits_mem h with ⟨pre, e, post, c, h1, h2, _, _⟩ | ⟨r, _, _, h3⟩
  · have he : e ∈ openRest := by rw [h1]; exact List.mem_append_right _ (List.mem_cons_self ..)
    have := openRest_names e he
    rw [h2] at this
    rcases hn with hn | hn
    · exact this.1 hn
    · exact this.2 hn
  · have h4 : decNumber "O_WRONLY".toList = none := by decide +kernel
    have h5 : decNumber "O_RDWR".toList = none := by decide +kernel
    rcases hn with rfl | rfl
    · rw [h4] at h3; cases h3
    · rw [h5] at h3; cases h3

theorem openTable_eq : openFlagsBitmask = (0o1, "O_WRONLY".toList) :: (0o2, "O_RDWR".toList) :: openRest := rfl

theorem and_two (v : Nat) : v &&& 0o2 = 2 * (v / 2 % 2) := by
  have h : (v &&& 2) / 2 = v / 2 &&& 1 := Nat.and_div_two
  have h2 : (v &&& 2) % 2 = 0 := by
    have := Nat.and_mod_two_eq_one (a := v) (b := 2)
    omega
  rw [Nat.and_one_is_mod] at h
  show v &&& 2 = _
  omega

theorem open_first {v : Nat} {x : Str} {rest : List Str} (hx : readBits v openFlagsBitmask = x :: rest) :
    (x = "O_WRONLY".toList ∨ x = "O_RDWR".toList) ↔ v % 4 ≠ 0 := by
  have h1 : v &&& 0o1 = v % 2 := Nat.and_one_is_mod v
  have h2 := and_two v
  rw [openTable_eq, readBits] at hx
  by_cases hw : v &&& 0o1 = 0
  · rw [if_pos hw, readBits] at hx
    by_cases hr : v &&& 0o2 = 0
    · rw [if_pos hr] at hx
      have hx' : x ∈ readBits v openRest := by rw [hx]; exact List.mem_cons_self ..
      rw [hw] at h1
      rw [hr] at h2
      exact ⟨fun hn => absurd hn (openRest_no hx'), fun h => by omega⟩
    · rw [if_neg hr] at hx
      injection hx with hx _
      rw [h2] at hr
      exact ⟨fun _ => by omega, fun _ => Or.inr hx.symm⟩
  · rw [if_neg hw] at hx
    injection hx with hx _
    rw [h1] at hw
    exact ⟨fun _ => by omega, fun _ => Or.inl hx.symm⟩

theorem openFlagNames_eq {v : Nat} (hv : v ≠ 0) :
    openFlagNames v = (if v % 4 = 0 then ["O_RDONLY".toList] else []) ++ readBits v openFlagsBitmask := by
  unfold openFlagNames
  cases hr : readBits v openFlagsBitmask with
  | nil => exact absurd (readBits_nil.1 hr) hv
  | cons x rest =>
    simp only
    by_cases h4 : v % 4 = 0
    · rw [if_neg (fun h => (open_first hr).1 h h4), if_pos h4]; rfl
    · rw [if_pos ((open_first hr).2 h4), if_neg h4]; rfl

end PT
