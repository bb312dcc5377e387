import Verif.Lemmas.Format

namespace PT
open Spec

/-! ### Octal text -/

/-- Horner step used by `Spec.octNumber`. -/
abbrev octStep (acc : Option Nat) (c : Char) : Option Nat :=
  match acc, (if '0' ≤ c ∧ c ≤ '7' then some (c.toNat - '0'.toNat) else none) with
  | some a, some d => some (8 * a + d)
  | _, _ => none

theorem octVal_decDigit (d : Nat) (h : d < 8) :
    (if '0' ≤ decDigit d ∧ decDigit d ≤ '7' then some ((decDigit d).toNat - '0'.toNat) else none) = some d := by
  have : ∀ d : Fin 8, (if '0' ≤ decDigit d.val ∧ decDigit d.val ≤ '7' then some ((decDigit d.val).toNat - '0'.toNat) else none) =
      some d.val := by decide
  exact this ⟨d, h⟩

theorem octDigits_ne_nil (n : Nat) (acc : Str) : octDigits n acc ≠ [] := by
  induction n, acc using octDigits.induct with
  | case1 n acc h => rw [octDigits]; simp [h]
  | case2 n acc h ih => rw [octDigits]; simpa [h] using ih

theorem octDigits_append (n : Nat) (acc : Str) : octDigits n acc = octDigits n [] ++ acc := by
  induction n using Nat.strongRecOn generalizing acc with
  | _ n ih =>
    rw [octDigits]
    conv => rhs; rw [octDigits]
    by_cases h : n < 8
    · simp [h]
    · simp only [h, dite_false]
      rw [ih (n / 8) (by omega), ih (n / 8) (by omega) [decDigit (n % 8)]]
      simp

theorem foldl_octDigits (n : Nat) : (octDigits n []).foldl octStep (some 0) = some n := by
  induction n using Nat.strongRecOn with
  | _ n ih =>
    rw [octDigits]
    by_cases h : n < 8
    · simp only [h, dite_true, List.foldl_cons, List.foldl_nil, octStep, octVal_decDigit n h]
      simp
    · simp only [h, dite_false]
      rw [octDigits_append, List.foldl_append, ih (n / 8) (by omega)]
      simp only [List.foldl_cons, List.foldl_nil, octStep, octVal_decDigit (n % 8) (by omega)]
      congr 1; omega

theorem octNumber_octDigits (n : Nat) : octNumber (octDigits n []) = some n := by
  unfold octNumber
  rw [if_neg (octDigits_ne_nil _ _)]
  exact foldl_octDigits n

theorem pyOct_inj {a b : Nat} (h : pyOct a = pyOct b) : a = b := by
  unfold pyOct at h
  injection h with _ h
  injection h with _ h
  have := octNumber_octDigits a
  rw [h, octNumber_octDigits] at this
  exact (Option.some.inj this).symm

theorem octDigits_digit (n : Nat) : ∀ c ∈ octDigits n [], '0' ≤ c ∧ c ≤ '7' := by
  induction n using Nat.strongRecOn with
  | _ n ih =>
    have dig : ∀ d : Fin 8, '0' ≤ decDigit d.val ∧ decDigit d.val ≤ '7' := by decide
    intro c hc
    rw [octDigits] at hc
    by_cases h : n < 8
    · simp only [h, dite_true, List.mem_singleton] at hc
      rw [hc]; exact dig ⟨n, h⟩
    · simp only [h, dite_false] at hc
      rw [octDigits_append] at hc
      rcases List.mem_append.1 hc with hc | hc
      · exact ih (n / 8) (by omega) c hc
      · rw [List.mem_singleton.1 hc]; exact dig ⟨n % 8, by omega⟩

theorem pyOct_paren (n : Nat) : '(' ∉ pyOct n := by
  unfold pyOct
  intro h
  rcases List.mem_cons.1 h with h | h
  · cases h
  · rcases List.mem_cons.1 h with h | h
    · cases h
    · exact absurd (octDigits_digit n _ h).1 (by decide)

/-! ### Flags -/

/-- Where a text of the list comes from. -/
theorem readBits_mem : ∀ {table : List (Nat × Str)} {v : Nat} {t : Str}, t ∈ readBits v table →
    (∃ pre e post c, table = pre ++ e :: post ∧ e.2 = t ∧ Rest pre v c ∧ c &&& e.1 ≠ 0) ∨
    (∃ r, Rest table v r ∧ r ≠ 0 ∧ decNumber t = some r) := by
  intro table
  induction table with
  | nil =>
    intro v t h
    rw [readBits] at h
    by_cases h0 : v = 0
    · rw [if_neg (by simpa using h0)] at h; cases h
    · rw [if_pos h0] at h
      refine Or.inr ⟨v, fun i => by simp, h0, ?_⟩
      rw [List.mem_singleton.1 h]; exact decNumber_pyDec v
  | cons e table ih =>
    obtain ⟨mask, item⟩ := e
    intro v t h
    rw [readBits] at h
    by_cases hm : v &&& mask = 0
    · rw [if_pos hm] at h
      have hb : ∀ i, v.testBit i = (v.testBit i && !mask.testBit i) := by
        intro i
        have := and_eq_zero_iff.1 hm i
        cases hv : v.testBit i <;> cases hmm : mask.testBit i <;> simp_all
      rcases ih h with ⟨pre, e, post, c, h1, h2, h3, h4⟩ | ⟨r, h1, h2, h3⟩
      · refine Or.inl ⟨(mask, item) :: pre, e, post, c, by rw [h1]; rfl, h2, ?_, h4⟩
        intro i
        rw [h3 i, List.any_cons]
        conv => lhs; rw [hb i]
        cases v.testBit i <;> cases mask.testBit i <;> simp
      · refine Or.inr ⟨r, ?_, h2, h3⟩
        intro i
        rw [h1 i, List.any_cons]
        conv => lhs; rw [hb i]
        cases v.testBit i <;> cases mask.testBit i <;> simp
    · rw [if_neg hm] at h
      rcases List.mem_cons.1 h with h | h
      · exact Or.inl ⟨[], (mask, item), table, v, rfl, h.symm, fun i => by simp, hm⟩
      · rcases ih h with ⟨pre, e, post, c, h1, h2, h3, h4⟩ | ⟨r, h1, h2, h3⟩
        · refine Or.inl ⟨(mask, item) :: pre, e, post, c, by rw [h1]; rfl, h2, ?_, h4⟩
          intro i
          rw [h3 i, List.any_cons, testBit_clear]
          cases v.testBit i <;> cases mask.testBit i <;> simp
        · refine Or.inr ⟨r, ?_, h2, h3⟩
          intro i
          rw [h1 i, List.any_cons, testBit_clear]
          cases v.testBit i <;> cases mask.testBit i <;> simp

/-- A mask of one bit that is listed is set. -/
theorem single_set {pre : List (Nat × Str)} {v c k : Nat} (h : Rest pre v c) (hc : c &&& 2 ^ k ≠ 0) : v &&& 2 ^ k = 2 ^ k := by
  apply single_and
  intro h0
  apply hc
  rw [and_eq_zero_iff] at h0 ⊢
  intro i
  rw [h i]
  have := h0 i
  cases hv : v.testBit i <;> simp_all

theorem rest_subset {table : List (Nat × Str)} {v r : Nat} (h : Rest table v r) : v &&& r = r := by
  apply Nat.eq_of_testBit_eq
  intro i
  rw [Nat.testBit_and, h i]
  cases v.testBit i <;> simp

theorem readBits_shown {table : List (Nat × Str)} {kernel : List (Str × Nat)}
    (h : ∀ e ∈ table, (e.2, e.1) ∈ kernel ∧ ∃ k, e.1 = 2 ^ k) {v : Nat} {t : Str} (ht : t ∈ readBits v table) : ShownFlag kernel v t := by
  rcases readBits_mem ht with ⟨pre, e, post, c, h1, h2, h3, h4⟩ | ⟨r, h1, _, h2⟩
  · have he : e ∈ table := by rw [h1]; simp
    obtain ⟨hm, k, hk⟩ := h e he
    rw [hk] at h4
    rw [h2] at hm
    exact Or.inl ⟨e.1, hm, by rw [hk]; exact single_set h3 h4⟩
  · exact Or.inr ⟨r, h2, rest_subset h1⟩

theorem formatBits_text {table : List (Nat × Str)} {v : Nat} (h : v ≠ 0) (e : Option Str) :
    formatBits v table e = '<' :: joinBar (readBits v table) ++ "> (".toList ++ pyDec v ++ [')'] := by
  unfold formatBits
  cases hr : readBits v table with
  | nil => exact absurd (readBits_nil.1 hr) h
  | cons x xs =>
    simp only
    rw [if_pos h]

theorem formatBits_zero {table : List (Nat × Str)} (c : Char) (t : Str) : formatBits 0 table (some (c :: t)) = c :: t := by
  unfold formatBits
  rw [readBits_nil.2 rfl]

theorem formatBits_none {table : List (Nat × Str)} : formatBits 0 table none = ['0'] := by
  unfold formatBits
  rw [readBits_nil.2 rfl]
  decide +kernel

/-- The text determines the value, whatever the table is. -/
theorem formatBits_inj {table : List (Nat × Str)} {e : Option Str} (he : ∀ t, e = some t → t.getLast? ≠ some ')') {v w : Nat}
    (h : formatBits v table e = formatBits w table e) : v = w := by
  have hz : ∀ u, u ≠ 0 → formatBits 0 table e ≠ formatBits u table e := by
    intro u hu heq
    rw [formatBits_text hu] at heq
    have h1 : (formatBits 0 table e).getLast? = some ')' := by rw [heq, List.getLast?_append]; rfl
    cases e with
    | none => rw [formatBits_none] at h1; cases h1
    | some t =>
      cases t with
      | nil =>
        have : formatBits 0 table (some []) = ['0'] := by
          unfold formatBits
          rw [readBits_nil.2 rfl]
          decide +kernel
        rw [this] at h1; cases h1
      | cons c t =>
        rw [formatBits_zero] at h1
        exact he _ rfl h1
  by_cases hv : v = 0
  · by_cases hw : w = 0
    · rw [hv, hw]
    · rw [hv] at h; exact absurd h (hz w hw)
  · by_cases hw : w = 0
    · rw [hw] at h; exact absurd h.symm (hz v hv)
    · rw [formatBits_text hv, formatBits_text hw] at h
      have e1 : ∀ (a : Str) (n : Nat), '<' :: a ++ "> (".toList ++ pyDec n ++ [')'] = ('<' :: a ++ "> ".toList) ++ '(' :: pyDec n ++ [')'] := by
        intro a n; simp
      rw [e1, e1] at h
      exact pyDec_inj (paren_inj (pyDec_paren v) (pyDec_paren w) h)

/-! ### Sets -/

theorem shift_bit (b i : Nat) : ((b >>> i) &&& 1 == 1) = b.testBit i := by
  rw [Nat.testBit_eq_decide_div_mod_eq, Nat.shiftRight_eq_div_pow, Nat.and_one_is_mod]
  cases h : decide (b / 2 ^ i % 2 = 1) <;> simp_all

theorem iterBits_eq (bytes : Bytes) : iterBits bytes =
    (List.range (8 * bytes.length)).map fun i => (bytes.getD (i / 8) 0).val.testBit (i % 8) := by
  induction bytes with
  | nil => rfl
  | cons b bs ih =>
    unfold iterBits at *
    rw [List.flatMap_cons, ih, List.length_cons, show 8 * (bs.length + 1) = 8 + 8 * bs.length by omega, List.range_add,
      List.map_append, List.map_map]
    congr 1
    · apply List.map_congr_left
      intro i hi
      have hi : i < 8 := List.mem_range.1 hi
      rw [shift_bit, Nat.div_eq_of_lt hi, Nat.mod_eq_of_lt hi]
      rfl
    · apply List.map_congr_left
      intro i _
      simp only [Function.comp]
      rw [show (8 + i) / 8 = i / 8 + 1 by omega, show (8 + i) % 8 = i % 8 by omega]
      rfl

theorem zipIdx_range {α β : Type} (f : Nat → α) (g : α → Nat → Option β) (n : Nat) :
    (((List.range n).map f).zipIdx.filterMap fun x => g x.1 x.2) = (List.range n).filterMap fun i => g (f i) i := by
  have : ((List.range n).map f).zipIdx = (List.range n).map fun i => (f i, i) := by
    apply List.ext_getElem
    · simp
    · intro i h1 h2; simp
  rw [this, List.filterMap_map]
  rfl

theorem filterMap_if {α β : Type} (p : α → Bool) (f : α → β) (l : List α) :
    (l.filterMap fun i => if p i then some (f i) else none) = (l.filter p).map f := by
  induction l with
  | nil => rfl
  | cons a l ih =>
    rw [List.filter_cons]
    by_cases h : p a = true
    · rw [List.filterMap_cons_some (b := f a) (by simp [h]), h, ih]; rfl
    · rw [List.filterMap_cons_none (by simp [h]), if_neg h, ih]

theorem bitTexts_eq (fmt : Nat → Str) (bytes : Bytes) : bitTexts fmt bytes =
    ((List.range (8 * bytes.length)).filter fun i => (bytes.getD (i / 8) 0).val.testBit (i % 8)).map fmt := by
  unfold bitTexts
  rw [iterBits_eq]
  have := zipIdx_range (fun i => (bytes.getD (i / 8) 0).val.testBit (i % 8)) (fun bit index => if bit then some (fmt index) else none)
    (8 * bytes.length)
  rw [← filterMap_if]
  exact this

theorem inSet_little {a : Arch} (hb : a.big = false) (mem : Nat → Nat) (address i : Nat) :
    inSet a.big a.W mem address i = (mem (address + i / 8)).testBit (i % 8) := by
  unfold inSet
  rw [hb]
  have hW : a.W = 4 ∨ a.W = 8 := by unfold Arch.W; split <;> simp
  simp only [Bool.false_eq_true, if_false]
  rcases hW with hW | hW <;> rw [hW]
  · rw [show address + i / (8 * 4) * 4 + i % (8 * 4) / 8 = address + i / 8 by omega, show i % (8 * 4) % 8 = i % 8 by omega]
  · rw [show address + i / (8 * 8) * 8 + i % (8 * 8) / 8 = address + i / 8 by omega, show i % (8 * 8) % 8 = i % 8 by omega]

theorem natOfDec_pyDec (n : Nat) : natOfDec (pyDec n) = n := natOfDec_eq (decNumber_pyDec n)

theorem filter_range {p : Nat → Bool} {m n : Nat} (h : n ≤ m) :
    ((List.range m).filter p).filter (fun i => decide (i < n)) = (List.range n).filter p := by
  obtain ⟨k, rfl⟩ := Nat.le.dest h
  rw [List.range_add, List.filter_append, List.filter_append]
  have h1 : ((List.range n).filter p).filter (fun i => decide (i < n)) = (List.range n).filter p := by
    rw [List.filter_eq_self]
    intro i hi
    simpa using (List.mem_filter.1 hi).1
  have h2 : (((List.range k).map (n + ·)).filter p).filter (fun i => decide (i < n)) = [] := by
    rw [List.filter_eq_nil_iff]
    intro i hi
    obtain ⟨j, _, rfl⟩ := List.mem_map.1 (List.mem_filter.1 hi).1
    simp
  rw [h1, h2, List.append_nil]

/-! ### Calls -/

theorem dropEmpty_spec (args : List Str) : TrailingDropped args (dropEmpty args) := by
  unfold dropEmpty
  have key : ∀ l : List Str, ∃ n, l = List.replicate n [] ++ l.dropWhile (· = []) ∧ (l.dropWhile (· = [])).head? ≠ some [] := by
    intro l
    induction l with
    | nil => exact ⟨0, rfl, by simp⟩
    | cons x l ih =>
      by_cases hx : x = []
      · obtain ⟨n, h1, h2⟩ := ih
        refine ⟨n + 1, ?_, ?_⟩
        · rw [List.dropWhile_cons_of_pos (by simpa using hx), List.replicate_succ, List.cons_append, ← h1, hx]
        · rw [List.dropWhile_cons_of_pos (by simpa using hx)]; exact h2
      · refine ⟨0, ?_, ?_⟩
        · rw [List.dropWhile_cons_of_neg (by simpa using hx)]; rfl
        · rw [List.dropWhile_cons_of_neg (by simpa using hx)]; simpa using hx
  obtain ⟨n, h1, h2⟩ := key args.reverse
  refine ⟨⟨n, ?_⟩, ?_⟩
  · have := congrArg List.reverse h1
    rw [List.reverse_reverse, List.reverse_append, List.reverse_replicate] at this
    exact this
  · rw [List.getLast?_reverse]; exact h2

theorem trailing_unique {args k k' : List (List Char)} (h : TrailingDropped args k) (h' : TrailingDropped args k') : k = k' := by
  obtain ⟨⟨n, h1⟩, h2⟩ := h
  obtain ⟨⟨n', h1'⟩, h2'⟩ := h'
  have e : k ++ List.replicate n [] = k' ++ List.replicate n' [] := by rw [← h1, ← h1']
  have key : ∀ (k k' : List (List Char)) (n n' : Nat), k.getLast? ≠ some [] → k ++ List.replicate n [] = k' ++ List.replicate n' [] → n ≤ n' →
      k'.length ≤ k.length ∧ ((k.length = k'.length) → k = k') ∧ (n < n' → k.getLast? = some []) := by
    intro k k' n n' hk e hn
    have hl : k.length + n = k'.length + n' := by
      have := congrArg List.length e
      simpa using this
    refine ⟨by omega, ?_, ?_⟩
    · intro hkl
      exact (List.append_inj e hkl).1
    · intro hlt
      exfalso
      apply hk
      have e2 : k = k' ++ List.replicate (n' - n) [] := by
        have : List.replicate n' ([] : List Char) = List.replicate (n' - n) [] ++ List.replicate n [] := by
          rw [List.replicate_append_replicate]; congr 1; omega
        rw [this, ← List.append_assoc] at e
        exact List.append_cancel_right e
      obtain ⟨m, hm⟩ : ∃ m, n' - n = m + 1 := ⟨n' - n - 1, by omega⟩
      rw [e2, hm, List.replicate_succ']
      rw [← List.append_assoc]
      simp
  rcases Nat.lt_trichotomy n n' with hlt | heq | hlt
  · exact absurd ((key k k' n n' h2 e (by omega)).2.2 hlt) h2
  · subst heq; exact List.append_cancel_right e
  · exact absurd ((key k' k n' n h2' e.symm (by omega)).2.2 hlt) h2'

end PT
