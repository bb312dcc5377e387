import Verif.Lemmas.Bytes
import Verif.Model.Repr
import Verif.Spec.Repr

/-! String literals are read back; UTF-8 with surrogate escapes is undone by its encoder. -/

namespace PT
open Spec

theorem char_ofNat_toNat {n : Nat} (h : n.isValidChar) : (Char.ofNat n).toNat = n := by
  unfold Char.ofNat
  rw [dif_pos h]
  rfl

theorem valid_ascii {n : Nat} (h : n < 128) : n.isValidChar := Or.inl (by omega)

theorem char_ofNat_inj {m n : Nat} (hm : m.isValidChar) (hn : n.isValidChar) (h : Char.ofNat m = Char.ofNat n) : m = n := by
  have := congrArg Char.toNat h
  rwa [char_ofNat_toNat hm, char_ofNat_toNat hn] at this

theorem literal_hex {q : Char} {n k v : Nat} {rest : Str} (hk : 0 < k) (hv : v < 16 ^ k) :
    (if (pyHexPad k v ++ rest).length < k then none
      else (hexNumber ((pyHexPad k v ++ rest).take k)).bind fun p =>
        (literalBody q n ((pyHexPad k v ++ rest).drop k)).map fun r => (p :: r.1, r.2))
      = (literalBody q n rest).map fun r => (v :: r.1, r.2) := by
  have hl := pyHexPad_length k v hk hv
  rw [if_neg (by rw [List.length_append]; omega), List.take_append_of_le_length (by omega), List.drop_append_of_le_length (by omega),
    List.take_of_length_le (by omega), List.drop_of_length_le (by omega), hexNumber_pyHexPad]
  rfl

theorem literal_x {q : Char} {n v : Nat} {rest : Str} (hq : '\\' ≠ q) (hv : v < 256) :
    literalBody q (n + 1) (hexEscape 'x' 2 v ++ rest) = (literalBody q n rest).map fun r => (v :: r.1, r.2) := by
  unfold hexEscape
  rw [List.cons_append, List.cons_append, literalBody]
  simp only [if_neg hq, if_true]
  exact literal_hex (by decide) (by simpa using hv)

theorem literal_u {q : Char} {n v : Nat} {rest : Str} (hq : '\\' ≠ q) (hv : v < 0x10000) :
    literalBody q (n + 1) (hexEscape 'u' 4 v ++ rest) = (literalBody q n rest).map fun r => (v :: r.1, r.2) := by
  unfold hexEscape
  rw [List.cons_append, List.cons_append, literalBody]
  simp only [if_neg hq, if_true]
  exact literal_hex (by decide) (by simpa using hv)

theorem literal_U {q : Char} {n v : Nat} {rest : Str} (hq : '\\' ≠ q) (hv : v < 16 ^ 8) :
    literalBody q (n + 1) (hexEscape 'U' 8 v ++ rest) = (literalBody q n rest).map fun r => (v :: r.1, r.2) := by
  unfold hexEscape
  rw [List.cons_append, List.cons_append, literalBody]
  simp only [if_neg hq, if_true]
  exact literal_hex (by decide) hv

theorem literal_plain {q : Char} {n v : Nat} {rest : Str} (h1 : Char.ofNat v ≠ q) (h2 : Char.ofNat v ≠ '\\') (hv : v.isValidChar) :
    literalBody q (n + 1) (Char.ofNat v :: rest) = (literalBody q n rest).map fun r => (v :: r.1, r.2) := by
  conv => lhs; unfold literalBody
  simp only [if_neg h1, if_neg h2, char_ofNat_toNat hv]

theorem literal_char {printable : Nat → Bool} (hp : ∀ c, printable c = true → c.isValidChar) {quote : Nat}
    (hq : quote = 39 ∨ quote = 34) {c : Nat} (hc : c < 16 ^ 8) {n : Nat} {rest : Str} :
    literalBody (Char.ofNat quote) (n + 1) (reprChar printable quote c ++ rest)
      = (literalBody (Char.ofNat quote) n rest).map fun r => (c :: r.1, r.2) := by
  have hqv : quote.isValidChar := valid_ascii (by omega)
  have hb : '\\' ≠ Char.ofNat quote := by rcases hq with rfl | rfl <;> decide
  unfold reprChar
  split
  · rename_i h
    have h92 : c = 39 ∨ c = 34 ∨ c = 92 := by omega
    rw [List.cons_append, List.cons_append, List.nil_append]
    conv => lhs; unfold literalBody
    simp only [if_neg hb, if_true]
    rcases h92 with rfl | rfl | rfl <;> rfl
  · rename_i h1
    split
    · rename_i h; subst h
      rw [List.cons_append, List.cons_append, List.nil_append, literalBody]
      simp only [if_neg hb, if_true]
    · split
      · rename_i h; subst h
        rw [List.cons_append, List.cons_append, List.nil_append, literalBody]
        simp only [if_neg hb, if_true]
      · split
        · rename_i h; subst h
          rw [List.cons_append, List.cons_append, List.nil_append, literalBody]
          simp only [if_neg hb, if_true]
        · have plain (hv : c.isValidChar) : literalBody (Char.ofNat quote) (n + 1) ([Char.ofNat c] ++ rest)
              = (literalBody (Char.ofNat quote) n rest).map fun r => (c :: r.1, r.2) := by
            refine literal_plain ?_ ?_ hv
            · intro h; exact h1 (.inl (char_ofNat_inj hv hqv h))
            · intro h
              exact h1 (.inr (char_ofNat_inj hv (valid_ascii (n := 92) (by decide)) h))
          split
          · exact literal_x hb (by omega)
          · split
            · exact plain (valid_ascii (by omega))
            · split
              · rename_i h; exact plain (hp c h)
              · split
                · exact literal_x hb (by assumption)
                · split
                  · exact literal_u hb (by assumption)
                  · exact literal_U hb hc

theorem literal_text {printable : Nat → Bool} (hp : ∀ c, printable c = true → c.isValidChar) {quote : Nat}
    (hq : quote = 39 ∨ quote = 34) {rest : Str} : ∀ {text : List Nat} (_ : ∀ c ∈ text, c < 16 ^ 8) {n : Nat} (_ : text.length < n),
    literalBody (Char.ofNat quote) n (text.flatMap (reprChar printable quote) ++ Char.ofNat quote :: rest) = some (text, rest)
  | [], _, n, hn => by
    obtain ⟨m, rfl⟩ : ∃ m, n = m + 1 := ⟨n - 1, by simp at hn; omega⟩
    rw [List.flatMap_nil, List.nil_append]
    conv => lhs; unfold literalBody
    simp only [if_true]
  | c :: text, hc, n, hn => by
    obtain ⟨m, rfl⟩ : ∃ m, n = m + 1 := ⟨n - 1, by simp at hn; omega⟩
    rw [List.flatMap_cons, List.append_assoc, literal_char hp hq (hc c (by simp)),
      literal_text hp hq (fun d hd => hc d (by simp [hd])) (by simp at hn; omega)]
    rfl

theorem reprChar_length {printable : Nat → Bool} {quote c : Nat} : 1 ≤ (reprChar printable quote c).length := by
  unfold reprChar hexEscape
  repeat' split
  all_goals simp

theorem flatMap_length_le {f : Nat → Str} (hf : ∀ c, 1 ≤ (f c).length) : ∀ l : List Nat, l.length ≤ (l.flatMap f).length
  | [] => by simp
  | c :: l => by
    have := flatMap_length_le hf l
    have := hf c
    simp only [List.flatMap_cons, List.length_append, List.length_cons]; omega

/-- A literal made by `repr` is read back, whatever follows it. -/
theorem literal_repr {printable : Nat → Bool} (hp : ∀ c, printable c = true → c.isValidChar) {text : List Nat}
    (ht : ∀ c ∈ text, c < 16 ^ 8) (rest : Str) : literal (reprStr printable text ++ rest) = some (text, rest) := by
  have hq : reprQuote text = 39 ∨ reprQuote text = 34 := by unfold reprQuote; split <;> simp
  have hc : Char.ofNat (reprQuote text) = '\'' ∨ Char.ofNat (reprQuote text) = '"' := by
    rcases hq with h | h <;> rw [h]
    · exact .inl rfl
    · exact .inr rfl
  unfold reprStr
  simp only []
  rw [List.cons_append, List.cons_append, List.append_assoc, literal, if_pos hc]
  refine literal_text hp hq ht ?_
  have := flatMap_length_le (fun c => reprChar_length (printable := printable) (quote := reprQuote text) (c := c)) text
  simp only [List.length_append]
  omega

/-! ### UTF-8 -/

theorem utf8First_encode {bs : List Nat} {p n : Nat} (hb : ∀ b ∈ bs, b < 256) (h : utf8First bs = some (p, n)) :
    1 ≤ n ∧ n ≤ bs.length ∧ encodePoint p = bs.take n ∧ p < 0x110000 := by
  unfold utf8First at h
  split at h
  · rename_i b0 rest
    have h0 := hb b0 (by simp)
    split at h
    · simp only [Option.some.injEq, Prod.mk.injEq] at h
      obtain ⟨rfl, rfl⟩ := h
      refine ⟨by omega, by simp, ?_, by omega⟩
      unfold encodePoint; rw [if_pos (by assumption)]; rfl
    · rename_i hn0
      split at h
      · rename_i b1 rest
        have h1 := hb b1 (by simp)
        split at h
        · rename_i h2
          split at h
          · rename_i hc
            simp only [isCont, decide_eq_true_eq] at hc
            simp only [Option.some.injEq, Prod.mk.injEq] at h
            obtain ⟨rfl, rfl⟩ := h
            refine ⟨by omega, by simp, ?_, by omega⟩
            unfold encodePoint
            rw [if_neg (by omega), if_pos (by omega)]
            simp only [List.take_succ_cons, List.take_zero, List.cons.injEq, and_true]
            omega
          · cases h
        · split at h
          · rename_i b2 rest
            split at h
            · rename_i h3
              split at h
              · rename_i hc
                simp only [isCont, decide_eq_true_eq] at hc
                obtain ⟨hc1, hc2, hE0, hED⟩ := hc
                simp only [Option.some.injEq, Prod.mk.injEq] at h
                obtain ⟨rfl, rfl⟩ := h
                refine ⟨by omega, by simp, ?_, by omega⟩
                unfold encodePoint
                rw [if_neg (by omega), if_neg (by omega), if_neg (by omega), if_pos (by omega)]
                simp only [List.take_succ_cons, List.take_zero, List.cons.injEq, and_true]
                omega
              · cases h
            · split at h
              · rename_i b3 rest
                split at h
                · rename_i hc
                  simp only [isCont, decide_eq_true_eq] at hc
                  obtain ⟨hF0, hF4, hc1, hc2, hc3, hlo, hhi⟩ := hc
                  simp only [Option.some.injEq, Prod.mk.injEq] at h
                  obtain ⟨rfl, rfl⟩ := h
                  refine ⟨by omega, by simp, ?_, by omega⟩
                  unfold encodePoint
                  rw [if_neg (by omega), if_neg (by omega), if_neg (by omega), if_neg (by omega)]
                  simp only [List.take_succ_cons, List.take_zero, List.cons.injEq, and_true]
                  omega
                · cases h
              · cases h
          · cases h
      · cases h
  · cases h

theorem utf8First_ascii {b : Nat} {rest : List Nat} (h : utf8First (b :: rest) = none) : 0x80 ≤ b := by
  unfold utf8First at h
  split at h
  · rename_i b0 r he
    cases he
    split at h
    · cases h
    · omega
  · rename_i he; cases he

/-- `os.fsencode(os.fsdecode(data)) = data`. -/
theorem fsdecode_encode (bs : List Nat) (hb : ∀ b ∈ bs, b < 256) : (fsdecodeVals bs).flatMap encodePoint = bs := by
  induction bs using fsdecodeVals.induct with
  | case1 => rw [fsdecodeVals]; rfl
  | case2 b rest p n h ih =>
    rw [fsdecodeVals, h]
    simp only [List.flatMap_cons]
    obtain ⟨h1, h2, h3, _⟩ := utf8First_encode hb h
    rw [ih (fun x hx => hb x (List.mem_cons_of_mem _ (List.mem_of_mem_drop hx))), h3]
    have : rest.drop (n - 1) = (b :: rest).drop n := by
      obtain ⟨m, rfl⟩ : ∃ m, n = m + 1 := ⟨n - 1, by omega⟩
      rfl
    rw [this, List.take_append_drop]
  | case3 b rest h ih =>
    rw [fsdecodeVals, h]
    simp only [List.flatMap_cons]
    have h1 := utf8First_ascii h
    have h2 := hb b (by simp)
    rw [ih (fun x hx => hb x (by simp [hx]))]
    unfold encodePoint
    rw [if_neg (by omega), if_neg (by omega), if_pos (by omega)]
    simp

theorem fsdecode_lt (bs : List Nat) (hb : ∀ b ∈ bs, b < 256) : ∀ p ∈ fsdecodeVals bs, p < 0x110000 := by
  induction bs using fsdecodeVals.induct with
  | case1 => rw [fsdecodeVals]; simp
  | case2 b rest p n h ih =>
    rw [fsdecodeVals, h]
    intro x hx
    rcases List.mem_cons.1 hx with rfl | hx
    · exact (utf8First_encode hb h).2.2.2
    · exact ih (fun x hx => hb x (List.mem_cons_of_mem _ (List.mem_of_mem_drop hx))) x hx
  | case3 b rest h ih =>
    rw [fsdecodeVals, h]
    intro x hx
    have h2 := hb b (by simp)
    rcases List.mem_cons.1 hx with rfl | hx
    · omega
    · exact ih (fun x hx => hb x (by simp [hx])) x hx

end PT
