import Verif.Lemmas.Expr

namespace PT
open Spec

/-! ### Numbers -/

theorem foldl_none {α : Type} (g : Option Nat → α → Option Nat) (h : ∀ c, g none c = none) (t : List α) :
    t.foldl g none = none := by
  induction t with
  | nil => rfl
  | cons c cs ih => rw [List.foldl_cons, h]; exact ih

theorem hexVal_some {c : Char} {d : Nat} (h : hexVal c = some d) : isHex c = true ∧ hexDigitVal c = d := by
  unfold hexVal at h
  unfold isHex hexDigitVal
  by_cases h1 : '0' ≤ c ∧ c ≤ '9'
  · rw [if_pos h1] at h
    injection h with h
    rw [(isDec_iff c).2 h1]
    exact ⟨rfl, h⟩
  · rw [if_neg h1] at h
    have h0 : isDec c = false := by
      cases hd : isDec c
      · rfl
      · exact absurd ((isDec_iff c).1 hd) h1
    by_cases h2 : 'a' ≤ c ∧ c ≤ 'f'
    · rw [if_pos h2] at h
      injection h with h
      rw [h0, Bool.false_or]
      refine ⟨decide_eq_true h2, ?_⟩
      rw [if_neg (by decide), ← h]
      have h3 := le_toNat.1 h2.1
      have h3 : 97 ≤ c.toNat := h3
      show c.toNat - 87 = 10 + (c.toNat - 97)
      omega
    · rw [if_neg h2] at h; cases h

theorem hexFold {t : Str} : ∀ {a n : Nat}, t.foldl (fun acc c => match acc, hexVal c with
    | some a, some d => some (16 * a + d)
    | _, _ => none) (some a) = some n →
    (∀ c ∈ t, isHex c = true) ∧ t.foldl (fun acc c => acc * 16 + hexDigitVal c) a = n := by
  induction t with
  | nil =>
    intro a n h
    injection h with h
    exact ⟨fun c hc => (by cases hc), h⟩
  | cons c cs ih =>
    intro a n h
    rw [List.foldl_cons] at h
    cases hv : hexVal c with
    | none =>
      rw [hv] at h
      simp only [] at h
      rw [foldl_none _ (fun c => rfl)] at h
      cases h
    | some d =>
      rw [hv] at h
      simp only [] at h
      obtain ⟨h1, h2⟩ := ih h
      obtain ⟨h3, h4⟩ := hexVal_some hv
      refine ⟨?_, ?_⟩
      · intro x hx
        rcases List.mem_cons.1 hx with rfl | hx
        · exact h3
        · exact h1 x hx
      · rw [List.foldl_cons, h4, Nat.mul_comm]; exact h2

theorem hexNumber_some {t : Str} {n : Nat} (h : hexNumber t = some n) :
    t ≠ [] ∧ (∀ c ∈ t, isHex c = true) ∧ intOfHex t = n := by
  unfold hexNumber at h
  by_cases ht : t = []
  · rw [if_pos ht] at h; cases h
  · rw [if_neg ht] at h
    exact ⟨ht, (hexFold h).1, (hexFold h).2⟩

theorem decFold {t : Str} : ∀ {a n : Nat}, t.foldl (fun acc c => match acc, decVal c with
    | some a, some d => some (10 * a + d)
    | _, _ => none) (some a) = some n → ∀ c ∈ t, isDec c = true := by
  induction t with
  | nil => intro a n _ c hc; cases hc
  | cons c cs ih =>
    intro a n h
    rw [List.foldl_cons] at h
    cases hv : decVal c with
    | none =>
      rw [hv] at h
      simp only [] at h
      rw [foldl_none _ (fun c => rfl)] at h
      cases h
    | some d =>
      rw [hv] at h
      simp only [] at h
      intro x hx
      rcases List.mem_cons.1 hx with rfl | hx
      · unfold decVal at hv
        by_cases h1 : '0' ≤ x ∧ x ≤ '9'
        · exact (isDec_iff x).2 h1
        · rw [if_neg h1] at hv; cases hv
      · exact ih h x hx

theorem decFold_total {t : Str} (h : ∀ c ∈ t, isDec c = true) : ∀ a : Nat, ∃ n, t.foldl (fun acc c => match acc, decVal c with
    | some a, some d => some (10 * a + d)
    | _, _ => none) (some a) = some n := by
  induction t with
  | nil => exact fun a => ⟨a, rfl⟩
  | cons c cs ih =>
    intro a
    have hc := (isDec_iff c).1 (h c (List.mem_cons_self ..))
    have hv : decVal c = some (c.toNat - '0'.toNat) := by unfold decVal; rw [if_pos hc]
    rw [List.foldl_cons, hv]
    exact ih (fun x hx => h x (List.mem_cons_of_mem _ hx)) _

theorem decNumber_iff {t : Str} : (∃ n, decNumber t = some n) ↔ t ≠ [] ∧ ∀ c ∈ t, isDec c = true := by
  unfold decNumber
  constructor
  · rintro ⟨n, h⟩
    by_cases ht : t = []
    · rw [if_pos ht] at h; cases h
    · rw [if_neg ht] at h
      exact ⟨ht, decFold h⟩
  · rintro ⟨ht, h⟩
    rw [if_neg ht]
    exact decFold_total h 0

/-! ### Items -/

theorem isHex_of_isDec {c : Char} (h : isDec c = true) : isHex c = true := by unfold isHex; rw [h]; rfl

theorem op_char {c : Char} (h : c ∈ "()<>+*/&-".toList) :
    isHex c = false ∧ isName c = false ∧ c ≠ '$' ∧ c ∈ arithmetic ∧ c ≠ '0' ∧ c ≠ 'x' := by
  have : ∀ d ∈ "()<>+*/&-".toList, isHex d = false ∧ isName d = false ∧ d ≠ '$' ∧ d ∈ arithmetic ∧ d ≠ '0' ∧ d ≠ 'x' := by decide
  exact this c h

theorem isLetter_mem {c : Char} (h : c ∈ "abcdefghijklmnopqrstuvwxyz".toList) : isLetter c = true := by
  have : ∀ d ∈ "abcdefghijklmnopqrstuvwxyz".toList, isLetter d = true := by decide
  exact this c h

theorem isName_mem {c : Char} (h : c ∈ "abcdefghijklmnopqrstuvwxyz0123456789_".toList) : isName c = true := by
  have : ∀ d ∈ "abcdefghijklmnopqrstuvwxyz0123456789_".toList, isName d = true := by decide
  exact this c h

/-- Text of a list of items. -/
def toksText (toks : List Tok) : Str := toks.flatMap Tok.text

theorem toksText_cons (x : Tok) (toks : List Tok) : toksText (x :: toks) = x.text ++ toksText toks := by
  unfold toksText; rw [List.flatMap_cons]

theorem Spec.Separated.tail {x : Tok} {toks : List Tok} (h : Separated (x :: toks)) : Separated toks := by
  cases toks with
  | nil => trivial
  | cons y rest => exact h.2

/-- After a number or a register comes an operator. -/
theorem Spec.Separated.head {x : Tok} {toks : List Tok} (h : Separated (x :: toks)) (hx : x.isOp = false) (hok : ∀ y ∈ toks, y.Ok) :
    ∀ c, (toksText toks).head? = some c → c ∈ "()<>+*/&-".toList := by
  cases toks with
  | nil => intro c hc; cases hc
  | cons y rest =>
    rcases h.1 with h1 | h1
    · rw [hx] at h1; cases h1
    · cases y with
      | op d =>
        intro c hc
        rw [toksText_cons] at hc
        cases hc
        exact hok _ (List.mem_cons_self ..)
      | _ => cases h1

/-! ### Substituting registers -/

theorem dollarLen_ne {c : Char} {cs : Str} (h : c ≠ '$') : dollarLen (c :: cs) = 0 := by
  unfold dollarLen
  split
  · rename_i heq; injection heq with h1 _; exact absurd h1 h
  · rfl

section
variable {σ : Type}

theorem reSub_copies {len : Str → Nat} {f : Str → Py σ Str} {pre : Str} (h : ∀ c ∈ pre, ∀ cs, len (c :: cs) = 0)
    {fuel : Nat} {rest r : Str} {s t : σ} (hr : reSub len f fuel rest s = (.ok r, t)) :
    reSub len f (fuel + pre.length) (pre ++ rest) s = (.ok (pre ++ r), t) := by
  induction pre with
  | nil => exact hr
  | cons c cs ih =>
    have := ih (fun x hx => h x (List.mem_cons_of_mem _ hx))
    exact reSub_copy (h c (List.mem_cons_self ..) _) this

/-- The item after its register is replaced by its value. -/
def Spec.Tok.filled (r : Str → Nat) : Tok → Tok
  | .reg name => .dec (pyDec (r name))
  | x => x

theorem Spec.Tok.text_dollar {x : Tok} (h : x.Ok) (hr : ∀ name, x ≠ .reg name) : ∀ c ∈ x.text, c ≠ '$' := by
  intro c hc
  have hx : ∀ c, isHex c = true → c ≠ '$' := by rintro c hc rfl; exact absurd hc (by decide)
  cases x with
  | dec ds => exact hx c (isHex_of_isDec ((decNumber_iff.1 h).2 c hc))
  | hex hs n =>
    have hs := (hexNumber_some h).2.1
    rcases List.mem_cons.1 hc with rfl | hc
    · decide
    · rcases List.mem_cons.1 hc with rfl | hc
      · decide
      · exact hx c (hs c hc)
  | bare hs n => exact hx c ((hexNumber_some h.1).2.1 c hc)
  | reg name => exact absurd rfl (hr name)
  | op d =>
    have : c = d := by simpa [Tok.text] using hc
    subst this
    exact (op_char h).2.2.1

theorem nameLen_reg {name rest : Str} (h : (Tok.reg name).Ok) (hr : ∀ c, rest.head? = some c → isName c = false) :
    nameLen (name ++ rest) = name.length ∧ 2 ≤ name.length := by
  obtain ⟨c, tl, rfl, h1, h2, h3⟩ := h
  have hl : 2 ≤ (c :: tl).length := by
    have := List.length_pos_iff.2 h1
    simp only [List.length_cons]; omega
  have hrun : runLen isName ((c :: tl) ++ rest) = (c :: tl).length := by
    refine runLen_append ?_ hr
    intro x hx
    rcases List.mem_cons.1 hx with rfl | hx
    · unfold isName; rw [isLetter_mem h2]; rfl
    · exact isName_mem (h3 x hx)
  refine ⟨?_, hl⟩
  unfold nameLen
  rw [List.cons_append]
  simp only []
  rw [← List.cons_append, hrun, isLetter_mem h2, Bool.true_and, if_pos (decide_eq_true hl)]

/-- The first substitution puts the values of the registers into the text. -/
theorem reSub_dollar {getreg : Str → Py σ Nat} {r : Str → Nat} :
    ∀ (toks : List Tok), (∀ x ∈ toks, x.Ok) → Separated toks →
    ∀ (fuel : Nat) (s t : σ), Reads getreg r (registers toks) s t → (toksText toks).length ≤ fuel →
    reSub dollarLen (fun m => Py.bind (getreg (m.drop 1)) fun v => Py.pure (pyDec v)) fuel (toksText toks) s =
      (.ok (toksText (toks.map (Tok.filled r))), t) := by
  intro toks
  induction toks with
  | nil => intro _ _ fuel s t h _; cases h; exact reSub_nil fuel s
  | cons x toks ih =>
    intro hok hsep fuel s t hreg hfuel
    have ih' := ih (fun y hy => hok y (List.mem_cons_of_mem _ hy)) hsep.tail
    have hx := hok x (List.mem_cons_self ..)
    rw [toksText_cons, List.length_append] at hfuel
    rw [toksText_cons, List.map_cons, toksText_cons]
    by_cases hname : ∃ name, x = .reg name
    · obtain ⟨name, rfl⟩ := hname
      have hop := hsep.head rfl (fun y hy => hok y (List.mem_cons_of_mem _ hy))
      obtain ⟨hl, hl2⟩ := nameLen_reg (rest := toksText toks) hx (fun c hc => (op_char (hop c hc)).2.1)
      have hreg : Reads getreg r (name :: registers toks) s t := hreg
      cases hreg with
      | @cons _ _ _ t' _ hg hreg =>
        have hlen : dollarLen (Tok.text (.reg name) ++ toksText toks) = (Tok.text (.reg name)).length := by
          show dollarLen ('$' :: (name ++ toksText toks)) = name.length + 1
          unfold dollarLen
          simp only []
          rw [hl, if_neg (by omega), Nat.add_comm]
        have htl : (Tok.text (.reg name)).length = name.length + 1 := rfl
        have hsub := ih' (fuel - 1) t' t hreg (by omega)
        have : fuel = (fuel - 1) + 1 := by omega
        rw [this]
        refine reSub_match (by simp [Tok.text]) hlen (t := t') ?_ hsub
        show Py.bind (getreg name) _ s = _
        rw [Py.run_bind_ok hg]
        rfl
    · have hf : Tok.filled r x = x ∧ registers (x :: toks) = registers toks := by
        cases x with
        | reg name => exact absurd ⟨name, rfl⟩ hname
        | _ => exact ⟨rfl, rfl⟩
      have hd := Tok.text_dollar hx (fun name h => hname ⟨name, h⟩)
      rw [hf.2] at hreg
      have hsub := ih' (fuel - x.text.length) s t hreg (by omega)
      have : fuel = (fuel - x.text.length) + x.text.length := by omega
      rw [this, hf.1]
      exact reSub_copies (fun c hc cs => dollarLen_ne (hd c hc)) hsub

/-! ### Substituting hexadecimal numbers -/

/-- The text of an item after both substitutions. -/
def Spec.Tok.plain : Tok → Str
  | .dec ds => ds
  | .hex _ n => pyDec n
  | .bare _ n => pyDec n
  | .reg name => '$' :: name
  | .op c => [c]

theorem hexLen_ne {t : Str} (h : ∀ rest, t ≠ '0' :: 'x' :: rest) : hexLen t = 0 := by
  unfold hexLen
  split
  · rename_i rest; exact absurd rfl (h rest)
  · rfl

theorem optHexLen_digits {ds rest : Str} (hd : ds ≠ []) (h : ∀ c ∈ ds, isHex c = true)
    (hr : ∀ c, rest.head? = some c → c ∈ "()<>+*/&-".toList) : optHexLen (ds ++ rest) = ds.length := by
  have hx : ∀ rest', ds ++ rest ≠ '0' :: 'x' :: rest' := by
    intro rest' he
    match ds, hd, h, he with
    | [c], _, _, he =>
      injection he with _ he
      exact (op_char (hr 'x' (by rw [show rest = _ from he]; rfl))).2.2.2.2.2 rfl
    | c :: d :: ds, _, h, he =>
      injection he with _ he
      injection he with he _
      subst he
      exact absurd (h 'x' (by simp)) (by decide)
  unfold optHexLen
  rw [hexLen_ne hx, if_pos rfl]
  exact runLen_append h (fun c hc => (op_char (hr c hc)).1)

theorem replaceHex_dec {ds : Str} (h : ∀ c ∈ ds, isDec c = true) : replaceHex ds = ds := by
  unfold replaceHex
  split
  · exact absurd (h 'x' (by simp)) (by decide)
  · have : ds.any (fun c => decide ('a' ≤ c ∧ c ≤ 'f')) = false := by
      rw [List.any_eq_false]
      intro c hc
      have h1 := (isDec_iff c).1 (h c hc)
      have h2 := le_toNat.1 h1.2
      simp only [decide_eq_true_eq, not_and]
      intro h3
      have h3 := le_toNat.1 h3
      have h2 : c.toNat ≤ 57 := h2
      have h3 : 97 ≤ c.toNat := h3
      omega
    rw [if_neg (by rw [this]; decide)]

theorem replaceHex_bare {hs : Str} {n : Nat} (h : (Tok.bare hs n).Ok) : replaceHex hs = pyDec n := by
  obtain ⟨h1, h2⟩ := h
  obtain ⟨hne, hx, hv⟩ := hexNumber_some h1
  unfold replaceHex
  split
  · exact absurd (hx 'x' (by simp)) (by decide)
  · have : hs.any (fun c => decide ('a' ≤ c ∧ c ≤ 'f')) = true := by
      by_contra hn
      have hall : ∀ c ∈ hs, isDec c = true := by
        intro c hc
        have h3 := hx c hc
        unfold isHex at h3
        rcases Bool.or_eq_true _ _ ▸ h3 with h3 | h3
        · exact h3
        · exact absurd (List.any_eq_true.2 ⟨c, hc, h3⟩) hn
      obtain ⟨m, hm⟩ := decNumber_iff.2 ⟨hne, hall⟩
      rw [h2] at hm; cases hm
    rw [if_pos this, hv]

/-- The second substitution. -/
theorem reSub_hex : ∀ (toks : List Tok), (∀ x ∈ toks, x.Ok) → (∀ name, Tok.reg name ∉ toks) → Separated toks →
    ∀ (fuel : Nat) (s : σ), (toksText toks).length ≤ fuel →
    reSub optHexLen (fun m => Py.pure (replaceHex m)) fuel (toksText toks) s = (.ok (toks.flatMap Tok.plain), s) := by
  intro toks
  induction toks with
  | nil => intro _ _ _ fuel s _; exact reSub_nil fuel s
  | cons x toks ih =>
    intro hok hreg hsep fuel s hfuel
    have ih' := ih (fun y hy => hok y (List.mem_cons_of_mem _ hy)) (fun n hn => hreg n (List.mem_cons_of_mem _ hn)) hsep.tail
    have hx := hok x (List.mem_cons_self ..)
    rw [toksText_cons, List.length_append] at hfuel
    rw [toksText_cons, List.flatMap_cons]
    -- a number
    have number : x.text ≠ [] → optHexLen (x.text ++ toksText toks) = x.text.length → replaceHex x.text = x.plain →
        reSub optHexLen (fun m => Py.pure (replaceHex m)) fuel (x.text ++ toksText toks) s =
          (.ok (x.plain ++ toks.flatMap Tok.plain), s) := by
      intro hne hl hrep
      have hpos := List.length_pos_iff.2 hne
      have : fuel = (fuel - 1) + 1 := by omega
      rw [this]
      refine reSub_match hne hl (t := s) ?_ (ih' (fuel - 1) s (by omega))
      rw [hrep]; rfl
    cases x with
    | reg name => exact absurd (List.mem_cons_self ..) (hreg name)
    | op c =>
      have hc := op_char hx
      have : fuel = (fuel - 1) + 1 := by have : (Tok.text (.op c)).length = 1 := rfl; omega
      rw [this]
      refine reSub_copy ?_ (ih' (fuel - 1) s (by have : (Tok.text (.op c)).length = 1 := rfl; omega))
      show optHexLen (c :: ([] ++ toksText toks)) = 0
      unfold optHexLen
      rw [hexLen_ne (by rintro rest he; injection he with he _; exact hc.2.2.2.2.1 he), if_pos rfl]
      unfold runLen
      rw [List.takeWhile_cons, if_neg (by rw [hc.1]; decide)]
      rfl
    | dec ds =>
      have hd := decNumber_iff.1 hx
      have hop := hsep.head rfl (fun y hy => hok y (List.mem_cons_of_mem _ hy))
      exact number hd.1 (optHexLen_digits hd.1 (fun c hc => isHex_of_isDec (hd.2 c hc)) hop) (replaceHex_dec hd.2)
    | bare hs n =>
      have hh := hexNumber_some hx.1
      have hop := hsep.head rfl (fun y hy => hok y (List.mem_cons_of_mem _ hy))
      exact number hh.1 (optHexLen_digits hh.1 hh.2.1 hop) (replaceHex_bare hx)
    | hex hs n =>
      have hh := hexNumber_some hx
      have hop := hsep.head rfl (fun y hy => hok y (List.mem_cons_of_mem _ hy))
      refine number (by simp [Tok.text]) ?_ (by show pyDec (intOfHex hs) = pyDec n; rw [hh.2.2])
      have hrun : runLen isHex (hs ++ toksText toks) = hs.length := runLen_append hh.2.1 (fun c hc => (op_char (hop c hc)).1)
      have hpos := List.length_pos_iff.2 hh.1
      have hl : hexLen ('0' :: 'x' :: (hs ++ toksText toks)) = 2 + hs.length := by
        unfold hexLen
        simp only []
        rw [hrun, if_neg (by omega)]
      show optHexLen ('0' :: 'x' :: (hs ++ toksText toks)) = hs.length + 1 + 1
      unfold optHexLen
      rw [hl, if_neg (by omega)]
      omega

end

/-! ### The evaluated text -/

theorem filled_ok {r : Str → Nat} {x : Tok} (h : x.Ok) : (Tok.filled r x).Ok := by
  cases x with
  | reg name => exact ⟨_, decNumber_pyDec _⟩
  | _ => exact h

theorem filled_isOp (r : Str → Nat) (x : Tok) : (Tok.filled r x).isOp = x.isOp := by cases x <;> rfl

theorem filled_sep {r : Str → Nat} : ∀ {toks : List Tok}, Separated toks → Separated (toks.map (Tok.filled r)) := by
  intro toks
  induction toks with
  | nil => exact id
  | cons x toks ih =>
    cases toks with
    | nil => intro _; trivial
    | cons y rest =>
      intro h
      refine ⟨?_, ih h.2⟩
      rw [filled_isOp, filled_isOp]
      exact h.1

theorem filled_reg (r : Str → Nat) (toks : List Tok) (name : Str) : Tok.reg name ∉ toks.map (Tok.filled r) := by
  intro h
  obtain ⟨x, _, hx⟩ := List.mem_map.1 h
  cases x <;> cases hx

theorem isDec_arith {c : Char} (h : isDec c = true) : c ∈ arithmetic := by
  rw [← isExprChar_iff]; unfold isExprChar; rw [h]; rfl

theorem pyDec_isDec (n : Nat) : ∀ c ∈ pyDec n, isDec c = true := fun c hc => (isDec_iff c).2 (pyDec_isDigit n c hc)

theorem plain_chars {r : Str → Nat} {x : Tok} (h : x.Ok) : (Tok.filled r x).plain ≠ [] ∧ ∀ c ∈ (Tok.filled r x).plain, c ∈ arithmetic := by
  cases x with
  | dec ds => exact ⟨(decNumber_iff.1 h).1, fun c hc => isDec_arith ((decNumber_iff.1 h).2 c hc)⟩
  | hex hs n => exact ⟨pyDec_ne_nil _, fun c hc => isDec_arith (pyDec_isDec _ c hc)⟩
  | bare hs n => exact ⟨pyDec_ne_nil _, fun c hc => isDec_arith (pyDec_isDec _ c hc)⟩
  | reg name => exact ⟨pyDec_ne_nil _, fun c hc => isDec_arith (pyDec_isDec _ c hc)⟩
  | op d =>
    refine ⟨List.cons_ne_nil _ _, fun c hc => ?_⟩
    have : c = d := by simpa [Tok.filled, Tok.plain] using hc
    subst this
    exact (op_char h).2.2.2.1

theorem doubleSlash_digits {t : Str} (h : ∀ c ∈ t, isDec c = true) : doubleSlash t = t := by
  unfold doubleSlash
  induction t with
  | nil => rfl
  | cons c cs ih =>
    have hc : c ≠ '/' := by rintro rfl; exact absurd (h '/' (List.mem_cons_self ..)) (by decide)
    rw [List.flatMap_cons, if_neg hc, ih (fun x hx => h x (List.mem_cons_of_mem _ hx))]
    rfl

theorem doubleSlash_append (t u : Str) : doubleSlash (t ++ u) = doubleSlash t ++ doubleSlash u := by
  unfold doubleSlash; rw [List.flatMap_append]

theorem doubleSlash_plain {r : Str → Nat} {x : Tok} (h : x.Ok) : doubleSlash (Tok.filled r x).plain = x.decimal r := by
  cases x with
  | dec ds => exact doubleSlash_digits (decNumber_iff.1 h).2
  | hex hs n => exact doubleSlash_digits (pyDec_isDec _)
  | bare hs n => exact doubleSlash_digits (pyDec_isDec _)
  | reg name => exact doubleSlash_digits (pyDec_isDec _)
  | op d =>
    show doubleSlash [d] = if d = '/' then "//".toList else [d]
    unfold doubleSlash
    by_cases hd : d = '/'
    · subst hd; decide
    · rw [List.flatMap_cons, if_neg hd, if_neg hd]; rfl

theorem doubleSlash_toks {r : Str → Nat} : ∀ {toks : List Tok}, (∀ x ∈ toks, x.Ok) →
    doubleSlash ((toks.map (Tok.filled r)).flatMap Tok.plain) = toks.flatMap (Tok.decimal r) := by
  intro toks
  induction toks with
  | nil => intro _; rfl
  | cons x toks ih =>
    intro h
    rw [List.map_cons, List.flatMap_cons, doubleSlash_append, List.flatMap_cons, doubleSlash_plain (h x (List.mem_cons_self ..)),
      ih (fun y hy => h y (List.mem_cons_of_mem _ hy))]

theorem plain_match {r : Str → Nat} {toks : List Tok} (hne : toks ≠ []) (hok : ∀ x ∈ toks, x.Ok) :
    exprMatch ((toks.map (Tok.filled r)).flatMap Tok.plain) = true := by
  have hall : ∀ c ∈ (toks.map (Tok.filled r)).flatMap Tok.plain, c ∈ arithmetic := by
    intro c hc
    obtain ⟨y, hy, hc⟩ := List.mem_flatMap.1 hc
    obtain ⟨x, hx, rfl⟩ := List.mem_map.1 hy
    exact (plain_chars (hok x hx)).2 c hc
  refine (exprMatch_iff ?_).2 ⟨?_, hall⟩
  · intro h
    exact absurd (hall _ (List.mem_of_getLast? h)) (by decide)
  · obtain ⟨x, rest, rfl⟩ := List.exists_cons_of_ne_nil hne
    rw [List.map_cons, List.flatMap_cons]
    exact List.append_ne_nil_of_left_ne_nil (plain_chars (hok x (List.mem_cons_self ..))).1 _

end PT
