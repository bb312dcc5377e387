import Verif.Lemmas.Expr2
import Verif.Lemmas.Memory
import Verif.Props.Ctypes

/-! Properties C47 and C48: expressions of `gdb.py` and of `parse_expr.py`. -/

namespace PT
open Spec

theorem readWord_lt {k : Kernel} {a v : Nat} {s t : MemSt} (h : readWord k a s = (.ok v, t)) : v < 2 ^ (8 * k.arch.W) := by
  have hW : 2 ^ (8 * k.arch.W) = 256 ^ k.arch.W := by rw [Nat.pow_mul]
  by_cases ha : a % k.arch.W = 0
  · by_cases he : k.peekErr s.log a = 0
    · rw [readWord_ok k a s ha he] at h
      cases h
      rw [hW]
      exact native_lt _ _ (by simp [bytesAt])
    · rw [readWord_err k a s ha he] at h; cases h
  · unfold readWord at h
    rw [if_pos ha] at h
    cases h

section
variable {σ : Type} {a : Arch} {ps : PyStr} {ev ev' : Str → Except EvalErr PyVal} {getreg : Str → Py σ Nat} {readWord : Nat → Py σ Nat}

/-- What is used of Python's text functions: a newline is white space, and lower case text ends with a newline only
if the text does. -/
structure TextFacts (ps : PyStr) : Prop where
  newline : ps.space '\n' = true
  lower : ∀ t, (ps.lower t).getLast? = some '\n' → t.getLast? = some '\n'

theorem lower_last (tf : TextFacts ps) (text : Str) : (ps.lower (strip ps.space text)).getLast? ≠ some '\n' := by
  intro h
  have := (strip_stripped ps.space text).2.2 _ (tf.lower _ h)
  rw [tf.newline] at this
  cases this

theorem dollar_last (f : Str → Py σ Nat) (t : Str) (s : σ) (r : Str) (u : σ) (g : Str → Str)
    (h : Py.bind (f (g (t.take (dollarLen t)))) (fun v => Py.pure (pyDec v)) s = (.ok r, u)) :
    r ≠ [] ∧ r.getLast? ≠ some '\n' := by
  obtain ⟨v, w, _, h2⟩ := Py.ok_of_bind h
  cases h2
  exact dec_last v

theorem hex_last {len : Str → Nat} (hlen : ∀ {t : Str} {c : Char}, c ∈ t.take (len t) → c = 'x' ∨ isHex c = true)
    (t : Str) (s : σ) (r : Str) (u : σ) (h0 : len t ≠ 0) (ht : t ≠ [])
    (h : (Py.pure (replaceHex (t.take (len t))) : Py σ Str) s = (.ok r, u)) : r ≠ [] ∧ r.getLast? ≠ some '\n' := by
  cases h
  refine replaceHex_last ?_ ?_
  · intro hn
    rcases List.take_eq_nil_iff.1 hn with h | h
    · exact h0 h
    · exact ht h
  · rintro c hc rfl
    rcases hlen hc with h | h <;> exact absurd h (by decide)

theorem len_ne {len : Str → Nat} (hnil : len [] = 0) {t : Str} (h : len t ≠ 0) : t ≠ [] := by
  rintro rfl; exact h hnil

/-- C47. Whatever is typed, `parseInteger` evaluates arithmetic text only: two evaluators that agree on texts made
of digits and `()<>+*/&-` cannot be told apart. -/
theorem C47_arithmetic (tf : TextFacts ps) (hev : ∀ t, (∀ c ∈ t, c ∈ arithmetic) → ev t = ev' t) (text : Str) (s : σ) :
    parseInteger a ps ev getreg readWord text s = parseInteger a ps ev' getreg readWord text s := by
  unfold parseInteger
  simp only []
  by_cases hsp : ' ' ∈ strip ps.space text
  · rw [if_pos hsp, if_pos hsp]
  · rw [if_neg hsp, if_neg hsp]
    have hlast := lower_last tf text
    generalize ps.lower (strip ps.space text) = t at hlast ⊢
    rcases h1 : reSub dollarLen (fun m => Py.bind (getreg (m.drop 1)) fun v => Py.pure (pyDec v)) t.length t s with ⟨e | t1, s1⟩
    · rw [Py.run_bind_error h1, Py.run_bind_error h1]
    · rw [Py.run_bind_ok h1, Py.run_bind_ok h1]
      have hlast1 : t1.getLast? ≠ some '\n' := fun h => hlast (reSub_last
        (fun t s r u _ h => dollar_last getreg t s r u (List.drop 1) h) _ _ _ _ _ h1 h)
      rcases h2 : reSub optHexLen (fun m => Py.pure (replaceHex m)) t1.length t1 s1 with ⟨e | t2, s2⟩
      · rw [Py.run_bind_error h2, Py.run_bind_error h2]
      · rw [Py.run_bind_ok h2, Py.run_bind_ok h2]
        have hlast2 : t2.getLast? ≠ some '\n' := fun h => hlast1 (reSub_last
          (fun t s r u h0 h => hex_last mem_take_optHexLen t s r u h0 (len_ne rfl h0) h) _ _ _ _ _ h2 h)
        by_cases hm : exprMatch t2 = true
        · rw [hm, Bool.not_true, if_neg (show ¬ (false = true) by decide), if_neg (show ¬ (false = true) by decide)]
          have har := doubleSlash_arith ((exprMatch_iff hlast2).1 hm).2
          have hd : ∀ c ∈ (if (doubleSlash t2).head? == some '*' then (doubleSlash t2).drop 1 else doubleSlash t2), c ∈ arithmetic := by
            intro c hc
            split at hc
            · exact har c (List.mem_of_mem_drop hc)
            · exact har c hc
          rw [hev _ hd]
        · rw [Bool.not_eq_true] at hm
          rw [hm, Bool.not_false, if_pos rfl, if_pos rfl]

/-- The same for `parseExpression`. -/
theorem C47_expression (tf : TextFacts ps) (hev : ∀ t, (∀ c ∈ t, c ∈ arithmetic) → ev t = ev' t) (text : Str) (s : σ) :
    parseExpression ps ev getreg text s = parseExpression ps ev' getreg text s := by
  unfold parseExpression
  simp only []
  by_cases hsp : ' ' ∈ strip ps.space text
  · rw [if_pos hsp, if_pos hsp]
  · rw [if_neg hsp, if_neg hsp]
    have hlast := lower_last tf text
    generalize ps.lower (strip ps.space text) = t at hlast ⊢
    rcases h1 : reSub hexLen (fun m => Py.pure (replaceHex m)) t.length t s with ⟨e | t1, s1⟩
    · rw [Py.run_bind_error h1, Py.run_bind_error h1]
    · rw [Py.run_bind_ok h1, Py.run_bind_ok h1]
      have hlast1 : t1.getLast? ≠ some '\n' := fun h => hlast (reSub_last
        (fun t s r u h0 h => hex_last mem_take_hexLen t s r u h0 (len_ne rfl h0) h) _ _ _ _ _ h1 h)
      rcases h2 : reSub nameLen (fun m => Py.bind (getreg m) fun v => Py.pure (pyDec v)) t1.length t1 s1 with ⟨e | t2, s2⟩
      · rw [Py.run_bind_error h2, Py.run_bind_error h2]
      · rw [Py.run_bind_ok h2, Py.run_bind_ok h2]
        have hlast2 : t2.getLast? ≠ some '\n' := by
          intro h
          refine hlast1 (reSub_last ?_ _ _ _ _ _ h2 h)
          intro t s r u _ h
          obtain ⟨v, w, _, h2⟩ := Py.ok_of_bind h
          cases h2
          exact dec_last v
        by_cases hm : exprMatch t2 = true
        · rw [hm, Bool.not_true, if_neg (show ¬ (false = true) by decide), if_neg (show ¬ (false = true) by decide)]
          rw [hev _ (doubleSlash_arith ((exprMatch_iff hlast2).1 hm).2)]
        · rw [Bool.not_eq_true] at hm
          rw [hm, Bool.not_false, if_pos rfl, if_pos rfl]

theorem reSub_error {len : Str → Nat} {f : Str → Py σ Str} : ∀ (fuel : Nat) (t : Str) (s u : σ) (e : Exc),
    reSub len f fuel t s = (.error e, u) → ∃ m s', f m s' = (.error e, u) := by
  intro fuel
  induction fuel with
  | zero => intro t s u e h; cases h
  | succ fuel ih =>
    intro t s u e h
    cases t with
    | nil => cases h
    | cons c cs =>
      rw [reSub] at h
      by_cases h0 : len (c :: cs) = 0
      · rw [if_pos h0] at h
        rcases Py.error_of_bind h with h | ⟨r, w, _, h⟩
        · exact ih _ _ _ _ h
        · cases h
      · rw [if_neg h0] at h
        rcases Py.error_of_bind h with h | ⟨r, w, _, h⟩
        · exact ⟨_, _, h⟩
        · rcases Py.error_of_bind h with h | ⟨r', w', _, h⟩
          · exact ih _ _ _ _ h
          · cases h

theorem reSub_pure {len : Str → Nat} {g : Str → Str} : ∀ (fuel : Nat) (t r : Str) (s u : σ),
    reSub len (fun m => Py.pure (g m)) fuel t s = (.ok r, u) → u = s := by
  intro fuel
  induction fuel with
  | zero => intro t r s u h; cases h; rfl
  | succ fuel ih =>
    intro t r s u h
    cases t with
    | nil => cases h; rfl
    | cons c cs =>
      rw [reSub] at h
      by_cases h0 : len (c :: cs) = 0
      · rw [if_pos h0] at h
        obtain ⟨x, w, h1, h2⟩ := Py.ok_of_bind h
        cases h2
        exact ih _ _ _ _ h1
      · rw [if_neg h0] at h
        obtain ⟨x, w, h1, h2⟩ := Py.ok_of_bind h
        obtain ⟨x', w', h3, h4⟩ := Py.ok_of_bind h2
        cases h1
        cases h4
        exact ih _ _ _ _ h3

theorem range_mem {l : List Char} {lo n : Nat} (h : ∀ d ∈ List.range' lo n, Char.ofNat d ∈ l) {c : Char}
    (h1 : lo ≤ c.toNat) (h2 : c.toNat < lo + n) : c ∈ l := by
  have := h c.toNat (by rw [List.mem_range'_1]; omega)
  rwa [Char.ofNat_toNat] at this

theorem isName_list {c : Char} (h : isName c = true) : c ∈ "abcdefghijklmnopqrstuvwxyz0123456789_".toList := by
  unfold isName at h
  rw [Bool.or_eq_true, Bool.or_eq_true] at h
  rcases h with (h | h) | h
  · unfold isLetter at h
    have h := of_decide_eq_true h
    have h1 : 97 ≤ c.toNat := le_toNat.1 h.1
    have h2 : c.toNat ≤ 122 := le_toNat.1 h.2
    exact range_mem (lo := 97) (n := 26) (by decide) h1 (by omega)
  · have h := (isDec_iff c).1 h
    have h1 : 48 ≤ c.toNat := le_toNat.1 h.1
    have h2 : c.toNat ≤ 57 := le_toNat.1 h.2
    exact range_mem (lo := 48) (n := 10) (by decide) h1 (by omega)
  · have : c = '_' := by simpa using h
    subst this; decide

theorem isHex_list {c : Char} (h : isHex c = true) : c ∈ arithmetic ∨ c ∈ "abcdefx".toList := by
  unfold isHex at h
  rw [Bool.or_eq_true] at h
  rcases h with h | h
  · exact .inl (isDec_arith h)
  · have h := of_decide_eq_true h
    have h1 : 97 ≤ c.toNat := le_toNat.1 h.1
    have h2 : c.toNat ≤ 102 := le_toNat.1 h.2
    exact .inr (range_mem (lo := 97) (n := 6) (by decide) h1 (by omega))

/-- A text with a character of no expression (no digit, letter, `_`, `$` or operator) is refused: `ValueError`, or
the exception of reading a register. -/
theorem C47_symbol (tf : TextFacts ps) (text y : Str) (hy : Stripped ps.space text y) (s : σ) (c : Char) (hc : c ∈ ps.lower y)
    (h1 : c ∉ arithmetic) (h2 : c ≠ '$') (h3 : c ∉ "abcdefghijklmnopqrstuvwxyz0123456789_".toList) :
    ∃ e u, parseInteger a ps ev getreg readWord text s = (.error e, u) ∧
      (e = .value ∨ ∃ name s', getreg name s' = (.error e, u)) := by
  rw [← stripped_iff.1 hy] at hc
  have hlast := lower_last tf text
  unfold parseInteger
  simp only []
  by_cases hsp : ' ' ∈ strip ps.space text
  · rw [if_pos hsp]; exact ⟨.value, s, rfl, .inl rfl⟩
  · rw [if_neg hsp]
    generalize ps.lower (strip ps.space text) = t at hlast hc ⊢
    rcases hr : reSub dollarLen (fun m => Py.bind (getreg (m.drop 1)) fun v => Py.pure (pyDec v)) t.length t s with ⟨e | t1, s1⟩
    · rw [Py.run_bind_error hr]
      obtain ⟨m, s', hm⟩ := reSub_error _ _ _ _ _ hr
      rcases Py.error_of_bind hm with hm | ⟨v, w, _, hm⟩
      · exact ⟨e, s1, rfl, .inr ⟨_, _, hm⟩⟩
      · cases hm
    · rw [Py.run_bind_ok hr]
      have hc1 : c ∈ t1 := by
        refine reSub_keeps ?_ _ _ _ _ _ hc hr
        intro t hm
        rcases mem_take_dollarLen hm with h | h
        · exact h2 h
        · exact h3 (isName_list h)
      have hlast1 : t1.getLast? ≠ some '\n' := fun h => hlast (reSub_last
        (fun t s r u _ h => dollar_last getreg t s r u (List.drop 1) h) _ _ _ _ _ hr h)
      rcases hr2 : reSub optHexLen (fun m => Py.pure (replaceHex m)) t1.length t1 s1 with ⟨e | t2, s2⟩
      · obtain ⟨m, s', hm⟩ := reSub_error _ _ _ _ _ hr2
        cases hm
      · rw [Py.run_bind_ok hr2]
        have hc2 : c ∈ t2 := by
          refine reSub_keeps ?_ _ _ _ _ _ hc1 hr2
          intro t hm
          rcases mem_take_optHexLen hm with h | h
          · subst h; exact h3 (by decide)
          · rcases isHex_list h with h | h
            · exact h1 h
            · have : ∀ d ∈ "abcdefx".toList, d ∈ "abcdefghijklmnopqrstuvwxyz0123456789_".toList := by decide
              exact h3 (this c h)
        have hlast2 : t2.getLast? ≠ some '\n' := fun h => hlast1 (reSub_last
          (fun t s r u h0 h => hex_last mem_take_optHexLen t s r u h0 (len_ne rfl h0) h) _ _ _ _ _ hr2 h)
        have hm : exprMatch t2 = false := by
          cases hm : exprMatch t2
          · rfl
          · exact absurd (((exprMatch_iff hlast2).1 hm).2 c hc2) h1
        rw [hm, Bool.not_false, if_pos rfl]
        exact ⟨.value, s2, rfl, .inl rfl⟩

/-- A letter that is neither a hexadecimal digit nor the `x` of `0x` is refused with `ValueError` unless registers
are used (`$`), and nothing is evaluated or read. -/
theorem C47_letter (tf : TextFacts ps) (text y : Str) (hy : Stripped ps.space text y) (s : σ) (c : Char) (hc : c ∈ ps.lower y)
    (h1 : c ∉ arithmetic) (h2 : '$' ∉ ps.lower y) (h3 : c ∉ "abcdefx".toList) :
    parseInteger a ps ev getreg readWord text s = (.error .value, s) := by
  rw [← stripped_iff.1 hy] at hc h2
  have hlast := lower_last tf text
  unfold parseInteger
  simp only []
  by_cases hsp : ' ' ∈ strip ps.space text
  · rw [if_pos hsp]; rfl
  · rw [if_neg hsp]
    generalize ps.lower (strip ps.space text) = t at hlast hc h2 ⊢
    have hr : reSub dollarLen (fun m => Py.bind (getreg (m.drop 1)) fun v => Py.pure (pyDec v)) t.length t s = (.ok t, s) := by
      refine reSub_none _ _ _ ?_
      intro u hu
      cases u with
      | nil => rfl
      | cons d ds => exact dollarLen_ne (fun hd => h2 (hu.subset (hd ▸ List.mem_cons_self ..)))
    rw [Py.run_bind_ok hr]
    rcases hr2 : reSub optHexLen (fun m => (Py.pure (replaceHex m) : Py σ Str)) t.length t s with ⟨e | t2, s2⟩
    · obtain ⟨m, s', hm⟩ := reSub_error _ _ _ _ _ hr2
      cases hm
    · rw [Py.run_bind_ok hr2]
      have hs2 : s2 = s := reSub_pure _ _ _ _ _ hr2
      have hc2 : c ∈ t2 := by
        refine reSub_keeps ?_ _ _ _ _ _ hc hr2
        intro t hm
        rcases mem_take_optHexLen hm with h | h
        · subst h; exact h3 (by decide)
        · rcases isHex_list h with h | h
          · exact h1 h
          · exact h3 h
      have hlast2 : t2.getLast? ≠ some '\n' := fun h => hlast (reSub_last
        (fun t s r u h0 h => hex_last mem_take_optHexLen t s r u h0 (len_ne rfl h0) h) _ _ _ _ _ hr2 h)
      have hm : exprMatch t2 = false := by
        cases hm : exprMatch t2
        · rfl
        · exact absurd (((exprMatch_iff hlast2).1 hm).2 c hc2) h1
      rw [hm, Bool.not_false, if_pos rfl, hs2]
      rfl

/-! ## C48 -/

/-- What `parseInteger` does with the arithmetic text. -/
def evalFinal (a : Arch) (ev : Str → Except EvalErr PyVal) (readWord : Nat → Py σ Nat) (text : Str) : Py σ Nat :=
  let isPointer := text.head? == some '*'
  let text := if isPointer then text.drop 1 else text
  match ev text with
  | .error .syntaxError => Py.raise .value
  | .error (.raised e) => Py.raise e
  | .ok v =>
    Py.bind (liftE (truncateVal a v)) fun value =>
    if isPointer then readWord value else Py.pure value

/-- `text` is an expression: without surrounding white space and in lower case it is this list of items. -/
structure Expression (ps : PyStr) (text : Str) (toks : List Tok) : Prop where
  typed : ∃ y, Stripped ps.space text y ∧ ' ' ∉ y ∧ ps.lower y = toks.flatMap Tok.text
  ne : toks ≠ []
  ok : ∀ x ∈ toks, x.Ok
  sep : Separated toks

theorem parseInteger_toks {r : Str → Nat} {text : Str} {toks : List Tok} (hx : Expression ps text toks)
    {s u : σ} (hreg : Reads getreg r (registers toks) s u) :
    parseInteger a ps ev getreg readWord text s = evalFinal a ev readWord (toks.flatMap (Tok.decimal r)) u := by
  obtain ⟨⟨y, h1, h2, h3⟩, hne, hok, hsep⟩ := hx
  have hr := reSub_dollar toks hok hsep (toksText toks).length s u hreg (Nat.le_refl _)
  unfold parseInteger
  simp only []
  rw [stripped_iff.1 h1, if_neg h2, h3]
  change Py.bind (reSub dollarLen _ (toksText toks).length (toksText toks)) _ s = _
  rw [Py.run_bind_ok hr, Py.run_bind_ok (reSub_hex _ (fun x hx => by
    obtain ⟨y, hy, rfl⟩ := List.mem_map.1 hx
    exact filled_ok (hok y hy)) (filled_reg r toks) (filled_sep hsep) _ u (Nat.le_refl _)),
    plain_match hne hok, Bool.not_true, if_neg (show ¬ (false = true) by decide), doubleSlash_toks hok]
  rfl

theorem truncate_mod (a : Arch) (v : Int) : truncateWord a v = v % 2 ^ (8 * a.W) := by
  have hpos : (0 : Int) < 2 ^ (8 * a.W) := Int.pow_pos (by decide)
  refine ((Props.C01_word_aliases a v _).2.2).2 ⟨Int.emod_nonneg _ (by omega), Int.emod_lt_of_pos _ hpos, v / 2 ^ (8 * a.W), ?_⟩
  rw [Int.mul_comm]
  exact (Int.emod_add_mul_ediv ..).symm

/-- The text evaluated is the expression with numbers in decimal, registers replaced by their values and `//` for
`/`; the result is reduced to a word, and syntax errors become `ValueError`. -/
theorem C48_expression {r : Str → Nat} {text : Str} {toks : List Tok} (hx : Expression ps text toks)
    {s u : σ} (hreg : Reads getreg r (registers toks) s u) (hp : ∀ rest, toks ≠ .op '*' :: rest) :
    (ev (toks.flatMap (Tok.decimal r)) = .error .syntaxError →
      parseInteger a ps ev getreg readWord text s = (.error .value, u)) ∧
    ∀ v, ev (toks.flatMap (Tok.decimal r)) = .ok (.int v) →
      parseInteger a ps ev getreg readWord text s = (.ok (v % 2 ^ (8 * a.W)).toNat, u) := by
  have hf : ((toks.flatMap (Tok.decimal r)).head? == some '*') = false := by
    obtain ⟨x, rest, rfl⟩ := List.exists_cons_of_ne_nil hx.ne
    have hok := hx.ok x (List.mem_cons_self ..)
    have dig : ∀ t : Str, t ≠ [] → (∀ c ∈ t, isDec c = true) → ((t ++ rest.flatMap (Tok.decimal r)).head? == some '*') = false := by
      intro t ht h
      obtain ⟨c, t', rfl⟩ := List.exists_cons_of_ne_nil ht
      have : c ≠ '*' := by rintro rfl; exact absurd (h '*' (List.mem_cons_self ..)) (by decide)
      simpa using this
    rw [List.flatMap_cons]
    cases x with
    | dec ds => exact dig ds (decNumber_iff.1 hok).1 (decNumber_iff.1 hok).2
    | hex hs n => exact dig _ (pyDec_ne_nil _) (pyDec_isDec _)
    | bare hs n => exact dig _ (pyDec_ne_nil _) (pyDec_isDec _)
    | reg name => exact dig _ (pyDec_ne_nil _) (pyDec_isDec _)
    | op c =>
      have hc : c ≠ '*' := fun hc => hp rest (by rw [hc])
      show (((if c = '/' then "//".toList else [c]) ++ rest.flatMap (Tok.decimal r)).head? == some '*') = false
      by_cases hsl : c = '/'
      · rw [if_pos hsl]; rfl
      · rw [if_neg hsl]; simpa using hc
  rw [parseInteger_toks hx hreg]
  unfold evalFinal
  simp only [hf, Bool.false_eq_true, if_false]
  constructor
  · intro he; rw [he]; rfl
  · intro v he
    rw [he]
    simp only [truncateVal, truncate_mod]
    rfl

/-- With a `*` in front, the word at the value of the rest is read. -/
theorem C48_pointer {r : Str → Nat} {text : Str} {toks : List Tok} (hx : Expression ps text (.op '*' :: toks))
    {s u : σ} (hreg : Reads getreg r (registers toks) s u) :
    (ev (toks.flatMap (Tok.decimal r)) = .error .syntaxError →
      parseInteger a ps ev getreg readWord text s = (.error .value, u)) ∧
    ∀ v, ev (toks.flatMap (Tok.decimal r)) = .ok (.int v) →
      parseInteger a ps ev getreg readWord text s = readWord (v % 2 ^ (8 * a.W)).toNat u := by
  rw [parseInteger_toks hx (show Reads getreg r (registers (.op '*' :: toks)) s u from hreg), List.flatMap_cons]
  have hf : (('*' :: toks.flatMap (Tok.decimal r)).head? == some '*') = true := rfl
  change (_ → evalFinal a ev readWord ('*' :: toks.flatMap (Tok.decimal r)) u = _) ∧ ∀ v, _ → evalFinal a ev readWord ('*' :: toks.flatMap (Tok.decimal r)) u = _
  unfold evalFinal
  simp only [hf, if_true]
  rw [show List.drop 1 ('*' :: toks.flatMap (Tok.decimal r)) = toks.flatMap (Tok.decimal r) from rfl]
  constructor
  · intro he; rw [he]; rfl
  · intro v he
    rw [he]
    simp only [truncateVal, truncate_mod]
    rfl

theorem toNat_mod (n m : Nat) : ((n : Int) % 2 ^ m).toNat = n % 2 ^ m := by
  have : ((n : Int) % 2 ^ m) = ((n % 2 ^ m : Nat) : Int) := by push_cast; rfl
  rw [this]; rfl

/-- A decimal number (without leading zeros) is its value, reduced to a word. -/
theorem C48_decimal (he : EvalNumbers ev) {text : Str} (n : Nat) (hs : Stripped ps.space text (pyDec n))
    (hl : ps.lower (pyDec n) = pyDec n) (s : σ) :
    parseInteger a ps ev getreg readWord text s = (.ok (n % 2 ^ (8 * a.W)), s) := by
  have hx : Expression ps text [.dec (pyDec n)] := by
    refine ⟨⟨_, hs, ?_, by rw [hl]; simp [Tok.text]⟩, List.cons_ne_nil _ _, ?_, trivial⟩
    · intro h; exact absurd (pyDec_isDec n _ h) (by decide)
    · intro x h
      have : x = .dec (pyDec n) := by simpa using h
      subst this; exact ⟨n, decNumber_pyDec n⟩
  have := (C48_expression (a := a) (ev := ev) (readWord := readWord) hx (r := fun _ => 0) (getreg := getreg) (.nil s)
    (by rintro rest h; cases h)).2 n (by
      rw [List.flatMap_cons, List.flatMap_nil, List.append_nil]; exact he n)
  rw [this, toNat_mod]

/-- So is a hexadecimal number, with any leading zeros, in upper or lower case. -/
theorem C48_hexadecimal (he : EvalNumbers ev) {text y hs : Str} {n : Nat} (hst : Stripped ps.space text y) (hsp : ' ' ∉ y)
    (hl : ps.lower y = '0' :: 'x' :: hs) (hn : hexNumber hs = some n) (s : σ) :
    parseInteger a ps ev getreg readWord text s = (.ok (n % 2 ^ (8 * a.W)), s) := by
  have hx : Expression ps text [.hex hs n] := by
    refine ⟨⟨_, hst, hsp, by rw [hl]; simp [Tok.text]⟩, List.cons_ne_nil _ _, ?_, trivial⟩
    intro x h
    have : x = .hex hs n := by simpa using h
    subst this; exact hn
  have := (C48_expression (a := a) (ev := ev) (readWord := readWord) hx (r := fun _ => 0) (getreg := getreg) (.nil s)
    (by rintro rest h; cases h)).2 n (by
      rw [List.flatMap_cons, List.flatMap_nil, List.append_nil]; exact he n)
  rw [this, toNat_mod]

/-- So is the value of a register. -/
theorem C48_register (he : EvalNumbers ev) {text y name : Str} (hst : Stripped ps.space text y) (hsp : ' ' ∉ y)
    (hl : ps.lower y = '$' :: name) (hn : (Tok.reg name).Ok) {s t : σ} {v : Nat} (hg : getreg name s = (.ok v, t)) :
    parseInteger a ps ev getreg readWord text s = (.ok (v % 2 ^ (8 * a.W)), t) := by
  have hx : Expression ps text [.reg name] := by
    refine ⟨⟨_, hst, hsp, by rw [hl]; simp [Tok.text]⟩, List.cons_ne_nil _ _, ?_, trivial⟩
    intro x h
    have : x = .reg name := by simpa using h
    subst this; exact hn
  have := (C48_expression (a := a) (ev := ev) (readWord := readWord) hx (r := fun _ => v) (getreg := getreg) (.cons hg (.nil t))
    (by rintro rest h; cases h)).2 v (by
      rw [List.flatMap_cons, List.flatMap_nil, List.append_nil]; exact he v)
  rw [this, toNat_mod]

end

/-- The result always fits a word, whatever the text, the registers, the evaluator and memory. -/
theorem C48_word (k : Kernel) (ps : PyStr) (ev : Str → Except EvalErr PyVal) (getreg : Str → Py MemSt Nat) (text : Str)
    (s t : MemSt) (v : Nat) (h : parseInteger k.arch ps ev getreg (readWord k) text s = (.ok v, t)) : v < 2 ^ (8 * k.arch.W) := by
  unfold parseInteger at h
  simp only [] at h
  split at h
  · cases h
  · obtain ⟨t1, s1, _, h⟩ := Py.ok_of_bind h
    obtain ⟨t2, s2, _, h⟩ := Py.ok_of_bind h
    split at h
    · cases h
    · generalize ev _ = res at h
      rcases res with (_ | e) | v'
      · cases h
      · cases h
      · obtain ⟨w, s3, h3, h⟩ := Py.ok_of_bind h
        split at h
        · exact readWord_lt h
        · cases h
          cases v' with
          | other => cases h3
          | int z =>
            cases h3
            rw [truncate_mod]
            have hpos : (0 : Int) < 2 ^ (8 * k.arch.W) := Int.pow_pos (by decide)
            have := Int.emod_lt_of_pos z hpos
            have h0 := Int.emod_nonneg z (Int.ne_of_gt hpos)
            have hc : ((2 ^ (8 * k.arch.W) : Nat) : Int) = 2 ^ (8 * k.arch.W) := by push_cast; rfl
            omega

/-! ### Examples -/

/-- ASCII text. -/
def asciiStr : PyStr where
  space c := [' ', '\t', '\n', '\r'].contains c
  lower t := t.map fun c => if 'A' ≤ c ∧ c ≤ 'Z' then Char.ofNat (c.toNat + 32) else c

theorem asciiStr_facts : TextFacts asciiStr where
  newline := by decide
  lower := by
    intro t h
    change (t.map _).getLast? = _ at h
    rw [List.getLast?_map] at h
    cases hl : t.getLast? with
    | none => rw [hl] at h; cases h
    | some c =>
      rw [hl] at h
      change some (if 'A' ≤ c ∧ c ≤ 'Z' then Char.ofNat (c.toNat + 32) else c) = some '\n' at h
      injection h with h
      by_cases hc : 'A' ≤ c ∧ c ≤ 'Z'
      · rw [if_pos hc] at h
        have h1 : 65 ≤ c.toNat := le_toNat.1 hc.1
        have h2 : c.toNat ≤ 90 := le_toNat.1 hc.2
        have : ∀ d ∈ List.range' 65 26, Char.ofNat (d + 32) ≠ '\n' := by decide
        exact absurd h (this c.toNat (by rw [List.mem_range'_1]; omega))
      · rw [if_neg hc] at h; rw [h]

/-- An evaluator of decimal numbers. -/
def evNumber (t : Str) : Except EvalErr PyVal :=
  match decNumber t with
  | some n => .ok (.int n)
  | none => .error .syntaxError

theorem evNumber_ok : EvalNumbers evNumber := by
  intro n; unfold evNumber; rw [decNumber_pyDec]

/-- One register. -/
def oneReg (name : Str) : Py MemSt Nat := if name = "rax".toList then Py.pure 48 else Py.raise (.ptrace none)

example (k : Kernel) := C47_arithmetic (a := k.arch) (ev := evNumber) (ev' := fun t => if t.all arithmetic.contains then evNumber t else .ok (.int 0)) (getreg := oneReg) (readWord := readWord k) asciiStr_facts
  (fun t ht => by show _ = if _ then _ else _; rw [if_pos (List.all_eq_true.2 fun c hc => List.contains_iff_mem.2 (ht c hc))]) "$rax".toList

example := C47_expression (ev := evNumber) (ev' := fun t => if t.all arithmetic.contains then evNumber t else .ok (.int 0)) (getreg := oneReg) asciiStr_facts
  (fun t ht => by show _ = if _ then _ else _; rw [if_pos (List.all_eq_true.2 fun c hc => List.contains_iff_mem.2 (ht c hc))]) "rax+1".toList

example (k : Kernel) := C48_decimal (a := k.arch) (ps := asciiStr) (getreg := oneReg) (readWord := readWord k) evNumber_ok (text := " 1234\n".toList) 1234 (stripped_iff.2 (by decide +kernel))
  (by decide +kernel)

-- `$rax` and `*$rax`
example (k : Kernel) (s : MemSt) := C48_expression (a := k.arch) (ps := asciiStr) (ev := evNumber) (getreg := oneReg) (readWord := readWord k) (r := fun _ => 48)
  (text := "$rax".toList) (toks := [.reg "rax".toList])
  ⟨⟨"$rax".toList, stripped_iff.2 (by decide), by decide, by decide⟩, by decide,
    fun x hx => by rw [List.mem_singleton.1 hx]; exact ⟨'r', "ax".toList, rfl, by decide, by decide, by decide⟩, trivial⟩
  (s := s) (u := s) (.cons rfl (.nil s)) (fun rest h => by cases h)

example (k : Kernel) (s : MemSt) := C48_pointer (a := k.arch) (ps := asciiStr) (ev := evNumber) (getreg := oneReg) (readWord := readWord k) (r := fun _ => 48)
  (text := "*$rax".toList) (toks := [.reg "rax".toList])
  ⟨⟨"*$rax".toList, stripped_iff.2 (by decide), by decide, by decide⟩, by decide, fun x hx => by
    simp only [List.mem_cons, List.not_mem_nil, or_false] at hx
    rcases hx with rfl | rfl
    · show _ ∈ _; decide
    · exact ⟨'r', "ax".toList, rfl, by decide, by decide, by decide⟩, by simp [Separated, Tok.isOp]⟩
  (s := s) (u := s) (.cons rfl (.nil s))

-- neither a call by name nor an attribute reaches the evaluator
example (ev : Str → Except EvalErr PyVal) (k : Kernel) (s : MemSt) :
    parseInteger k.arch asciiStr ev oneReg (readWord k) "exit(1)".toList s = (.error .value, s) :=
  C47_letter asciiStr_facts _ _ (stripped_iff.2 rfl) _ 'i' (by decide) (by decide) (by decide) (by decide)
example (ev : Str → Except EvalErr PyVal) (k : Kernel) (s : MemSt) :
    ∃ e u, parseInteger k.arch asciiStr ev oneReg (readWord k) "$rax.bit_length()".toList s = (.error e, u) ∧
      (e = .value ∨ ∃ name s', oneReg name s' = (.error e, u)) :=
  C47_symbol asciiStr_facts _ _ (stripped_iff.2 rfl) _ '.' (by decide) (by decide) (by decide) (by decide)
-- numbers and registers
example (k : Kernel) (s : MemSt) :
    parseInteger k.arch asciiStr evNumber oneReg (readWord k) " 0x00fF\n".toList s = (.ok (255 % 2 ^ (8 * k.arch.W)), s) :=
  C48_hexadecimal evNumber_ok (y := "0x00fF".toList) (hs := "00ff".toList)
    (stripped_iff.2 (by decide)) (by decide) (by decide) (by decide) s
example (k : Kernel) (s : MemSt) :
    parseInteger k.arch asciiStr evNumber oneReg (readWord k) "$RAX".toList s = (.ok (48 % 2 ^ (8 * k.arch.W)), s) :=
  C48_register evNumber_ok (y := "$RAX".toList) (name := "rax".toList)
    (stripped_iff.2 (by decide)) (by decide) (by decide) ⟨'r', "ax".toList, by decide, by decide, by decide, by decide⟩ rfl
-- an expression
example : Expression asciiStr "*($rax+0x10)/2".toList [.op '*', .op '(', .reg "rax".toList, .op '+', .hex "10".toList 16, .op ')', .op '/', .dec "2".toList] :=
  ⟨⟨"*($rax+0x10)/2".toList, stripped_iff.2 (by decide), by decide, by decide⟩, by decide, by
    intro x hx
    simp only [List.mem_cons, List.not_mem_nil, or_false] at hx
    rcases hx with rfl | rfl | rfl | rfl | rfl | rfl | rfl | rfl
    · show '*' ∈ _; decide
    · show '(' ∈ _; decide
    · exact ⟨'r', "ax".toList, by decide, by decide, by decide, by decide⟩
    · show '+' ∈ _; decide
    · show hexNumber _ = _; decide
    · show ')' ∈ _; decide
    · show '/' ∈ _; decide
    · exact ⟨2, by decide⟩, by simp [Separated, Tok.isOp]⟩
example : [Tok.op '*', .op '(', .reg "rax".toList, .op '+', .hex "10".toList 16, .op ')', .op '/', .dec "2".toList].flatMap
    (Tok.decimal fun _ => 48) = "*(48+16)//2".toList := by decide +kernel

end PT
