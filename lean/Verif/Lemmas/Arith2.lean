import Verif.Lemmas.Arith
import Verif.Props.Expr

/-! Arithmetic expressions: from the items typed to the text evaluated. -/

namespace PT
open Spec

theorem decDigits_head (n : Nat) (h : n ≠ 0) : (decDigits n []).head? ≠ some '0' := by
  induction n using Nat.strongRecOn with
  | _ n ih =>
    rw [decDigits]
    by_cases hn : n < 10
    · simp only [hn, dite_true, List.head?_cons]
      have : ∀ d : Fin 10, d.val ≠ 0 → decDigit d.val ≠ '0' := by decide
      intro he
      exact this ⟨n, hn⟩ h (Option.some.inj he)
    · simp only [hn, dite_false]
      rw [decDigits_append]
      have hne : decDigits (n / 10) [] ≠ [] := pyDec_ne_nil (n / 10)
      rw [List.head?_append_of_ne_nil _ hne]
      exact ih (n / 10) (by omega) (by omega)

theorem pyNumber_pyDec (n : Nat) : PyNumber (pyDec n) n := ⟨decNumber_pyDec n, decDigits_head n⟩

theorem gdbNumber_py {r : Str → Nat} {toks : List Tok} {n : Nat} (h : GdbNumber r toks n) :
    PyNumber (toks.flatMap (Tok.decimal r)) n := by
  cases h with
  | dec h => simpa [Tok.decimal] using h
  | hex => simpa [Tok.decimal] using pyNumber_pyDec n
  | bare => simpa [Tok.decimal] using pyNumber_pyDec n
  | reg => simpa [Tok.decimal] using pyNumber_pyDec _

theorem gdbOp_py (r : Str → Nat) (o : BinOp) : (gdbOp o).flatMap (Tok.decimal r) = pyOp o := by
  cases o <;> rfl

theorem gdbPhrase_py {r : Str → Nat} {l : Nat} {toks : List Tok} {e : Ast} (h : Phrase (GdbNumber r) gdbOp Tok.op l toks e) :
    Phrase PyNumber pyOp id l (toks.flatMap (Tok.decimal r)) e := by
  induction h with
  | number h => exact .number (gdbNumber_py h)
  | @paren t e _ ih =>
    have : ((Tok.op '(' :: t) ++ [Tok.op ')']).flatMap (Tok.decimal r) = (id '(' :: t.flatMap (Tok.decimal r)) ++ [id ')'] := by
      rw [List.flatMap_append, List.flatMap_cons]; rfl
    rw [this]
    exact .paren ih
  | @pow t u a b _ _ ih1 ih2 =>
    rw [List.flatMap_append, List.flatMap_append, gdbOp_py]
    exact .pow ih1 ih2
  | @pos t e _ ih => exact .pos ih
  | @neg t e _ ih => exact .neg ih
  | @bin o t u a b ho _ _ ih1 ih2 =>
    rw [List.flatMap_append, List.flatMap_append, gdbOp_py]
    exact .bin ho ih1 ih2
  | up hl _ ih => exact .up hl ih

theorem gdbArith_head {r : Str → Nat} {toks : List Tok} {e : Ast} (h : GdbArith r toks e) :
    ((toks.flatMap (Tok.decimal r)).head? == some '*') = false := by
  obtain ⟨c, t, ht, hc⟩ := phrase_head (gdbPhrase_py h)
  rw [ht]
  have : c ≠ '*' := by
    rintro rfl
    rcases hc with hc | hc <;> exact absurd hc (by decide)
  simpa using this

/-! ### Names without `$` -/

section
variable {σ : Type}

theorem namedText_cons (x : Tok) (toks : List Tok) : (x :: toks).flatMap Tok.named = x.named ++ toks.flatMap Tok.named := List.flatMap_cons

theorem named_head {x : Tok} {toks : List Tok} (h : Separated (x :: toks)) (hx : x.isOp = false) (hok : ∀ y ∈ toks, y.Ok) {f : Tok → Str}
    (hf : ∀ c, f (.op c) = [c]) : ∀ c, (toks.flatMap f).head? = some c → c ∈ "()<>+*/&-".toList := by
  cases toks with
  | nil => intro c hc; cases hc
  | cons y rest =>
    rcases h.1 with h1 | h1
    · rw [hx] at h1; cases h1
    · cases y with
      | op d =>
        intro c hc
        rw [List.flatMap_cons, hf] at hc
        cases hc
        exact hok _ (List.mem_cons_self ..)
      | _ => cases h1

/-- The item after the hexadecimal numbers are replaced. -/
def Spec.Tok.half : Tok → Str
  | .hex _ n => pyDec n
  | x => x.named

/-- Text without `0x` inside and without a following `x` is copied. -/
theorem reSub_copies_hex {f : Str → Py σ Str} : ∀ {pre : Str} (_ : ¬ "0x".toList <:+: pre) {rest : Str}
    (_ : ∀ c, rest.head? = some c → c ≠ 'x') {fuel : Nat} {r : Str} {s t : σ} (_ : reSub hexLen f fuel rest s = (.ok r, t)),
    reSub hexLen f (fuel + pre.length) (pre ++ rest) s = (.ok (pre ++ r), t) := by
  intro pre
  induction pre with
  | nil => intro _ _ _ _ _ _ _ h; exact h
  | cons c cs ih =>
    intro hp rest hx fuel r s t h
    have := ih (fun hi => hp (hi.trans (List.suffix_cons c cs).isInfix)) hx h
    refine reSub_copy ?_ this
    apply hexLen_ne
    intro rest' he
    injection he with h1 h2
    cases cs with
    | nil => exact hx 'x' (by rw [show rest = _ from h2]; rfl) rfl
    | cons d ds =>
      injection h2 with h2 _
      exact hp ⟨[], ds, by rw [h1, h2]; rfl⟩

theorem reSub_named_hex : ∀ (toks : List Tok), (∀ x ∈ toks, x.Ok) → (∀ x ∈ toks, x.Plain) → Separated toks →
    ∀ (fuel : Nat) (s : σ), (toks.flatMap Tok.named).length ≤ fuel →
    reSub hexLen (fun m => Py.pure (replaceHex m)) fuel (toks.flatMap Tok.named) s = (.ok (toks.flatMap Tok.half), s) := by
  intro toks
  induction toks with
  | nil => intro _ _ _ fuel s _; exact reSub_nil fuel s
  | cons x toks ih =>
    intro hok hpl hsep fuel s hfuel
    have ih' := ih (fun y hy => hok y (List.mem_cons_of_mem _ hy)) (fun y hy => hpl y (List.mem_cons_of_mem _ hy)) hsep.tail
    have hx := hok x (List.mem_cons_self ..)
    have hxp := hpl x (List.mem_cons_self ..)
    rw [namedText_cons, List.length_append] at hfuel
    rw [namedText_cons, List.flatMap_cons]
    -- text that stays
    have stays : ¬ "0x".toList <:+: x.named → (∀ c, (toks.flatMap Tok.named).head? = some c → c ≠ 'x') → x.half = x.named →
        reSub hexLen (fun m => Py.pure (replaceHex m)) fuel (x.named ++ toks.flatMap Tok.named) s =
          (.ok (x.half ++ toks.flatMap Tok.half), s) := by
      intro hi hh he
      rw [he]
      have : fuel = (fuel - x.named.length) + x.named.length := by omega
      rw [this]
      exact reSub_copies_hex hi hh (ih' _ s (by omega))
    have hop : x.isOp = false → ∀ c, (toks.flatMap Tok.named).head? = some c → c ∈ "()<>+*/&-".toList := fun h =>
      named_head hsep h (fun y hy => hok y (List.mem_cons_of_mem _ hy)) (fun _ => rfl)
    cases x with
    | bare hs n => exact absurd hxp id
    | op c =>
      have hc := op_char hx
      have : fuel = (fuel - 1) + 1 := by have : (Tok.named (.op c)).length = 1 := rfl; omega
      rw [this]
      refine reSub_copy ?_ (ih' (fuel - 1) s (by have : (Tok.named (.op c)).length = 1 := rfl; omega))
      exact hexLen_ne (by rintro rest he; injection he with he _; exact hc.2.2.2.2.1 he)
    | dec ds =>
      refine stays ?_ (fun c hc => (op_char (hop rfl c hc)).2.2.2.2.2) rfl
      intro hi
      have := (decNumber_iff.1 hx).2 'x' (hi.subset (by decide))
      exact absurd this (by decide)
    | reg name => exact stays hxp (fun c hc => (op_char (hop rfl c hc)).2.2.2.2.2) rfl
    | hex hs n =>
      have hh := hexNumber_some hx
      have hl : hexLen ('0' :: 'x' :: (hs ++ toks.flatMap Tok.named)) = 2 + hs.length := by
        unfold hexLen
        simp only []
        rw [runLen_append hh.2.1 (fun c hc => (op_char (hop rfl c hc)).1), if_neg (by have := List.length_pos_iff.2 hh.1; omega)]
      have hlen : (Tok.named (.hex hs n)).length = hs.length + 2 := rfl
      have : fuel = (fuel - 1) + 1 := by omega
      rw [this]
      refine reSub_match (by simp [Tok.named, Tok.text]) (by rw [hlen]; show hexLen ('0' :: 'x' :: (hs ++ _)) = _; rw [hl]; omega) (t := s) ?_
        (ih' (fuel - 1) s (by omega))
      show (Except.ok (pyDec (intOfHex hs)), s) = _
      rw [hh.2.2]
      rfl

theorem nameLen_ne {c : Char} {cs : Str} (h : isLetter c = false) : nameLen (c :: cs) = 0 := by
  unfold nameLen
  simp only []
  rw [h, Bool.false_and, if_neg (by decide)]

theorem isLetter_dec {c : Char} (h : isDec c = true) : isLetter c = false := by
  have h1 := (isDec_iff c).1 h
  have h2 : c.toNat ≤ 57 := le_toNat.1 h1.2
  unfold isLetter
  rw [decide_eq_false_iff_not]
  intro h3
  have h4 : 97 ≤ c.toNat := le_toNat.1 h3.1
  omega

theorem reSub_named {getreg : Str → Py σ Nat} {r : Str → Nat} :
    ∀ (toks : List Tok), (∀ x ∈ toks, x.Ok) → (∀ x ∈ toks, x.Plain) → Separated toks →
    ∀ (fuel : Nat) (s t : σ), Reads getreg r (registers toks) s t → (toks.flatMap Tok.half).length ≤ fuel →
    reSub nameLen (fun m => Py.bind (getreg m) fun v => Py.pure (pyDec v)) fuel (toks.flatMap Tok.half) s =
      (.ok ((toks.map (Tok.filled r)).flatMap Tok.plain), t) := by
  intro toks
  induction toks with
  | nil => intro _ _ _ fuel s t h _; cases h; exact reSub_nil fuel s
  | cons x toks ih =>
    intro hok hpl hsep fuel s t hreg hfuel
    have ih' := ih (fun y hy => hok y (List.mem_cons_of_mem _ hy)) (fun y hy => hpl y (List.mem_cons_of_mem _ hy)) hsep.tail
    have hx := hok x (List.mem_cons_self ..)
    rw [List.flatMap_cons, List.length_append] at hfuel
    rw [List.flatMap_cons, List.map_cons, List.flatMap_cons]
    have stays : registers (x :: toks) = registers toks → (Tok.filled r x).plain = x.half → (∀ c ∈ x.half, isLetter c = false) →
        reSub nameLen (fun m => Py.bind (getreg m) fun v => Py.pure (pyDec v)) fuel (x.half ++ toks.flatMap Tok.half) s =
          (.ok ((Tok.filled r x).plain ++ (toks.map (Tok.filled r)).flatMap Tok.plain), t) := by
      intro hr he hc
      rw [hr] at hreg
      rw [he]
      have : fuel = (fuel - x.half.length) + x.half.length := by omega
      rw [this]
      exact reSub_copies (fun c hc' cs => nameLen_ne (hc c hc')) (ih' _ s t hreg (by omega))
    cases x with
    | bare hs n => exact absurd (hpl _ (List.mem_cons_self ..)) id
    | dec ds => exact stays rfl rfl (fun c hc => isLetter_dec ((decNumber_iff.1 hx).2 c hc))
    | hex hs n => exact stays rfl rfl (fun c hc => isLetter_dec (pyDec_isDec n c hc))
    | op d =>
      refine stays rfl rfl (fun c hc => ?_)
      have : c = d := by simpa [Tok.half, Tok.named, Tok.text] using hc
      subst this
      have := (op_char hx).2.1
      unfold isName at this
      simp only [Bool.or_eq_false_iff] at this
      exact this.1.1
    | reg name =>
      have hop := named_head (f := Tok.half) hsep rfl (fun y hy => hok y (List.mem_cons_of_mem _ hy)) (fun _ => rfl)
      obtain ⟨hl, hl2⟩ := nameLen_reg (rest := toks.flatMap Tok.half) hx (fun c hc => (op_char (hop c hc)).2.1)
      have hreg : Reads getreg r (name :: registers toks) s t := hreg
      cases hreg with
      | @cons _ _ _ t' _ hg hreg =>
        have hlen : (Tok.half (.reg name)).length = name.length := rfl
        have : fuel = (fuel - 1) + 1 := by omega
        rw [this]
        refine reSub_match (m := name) (by intro h; rw [h] at hl2; exact absurd hl2 (by decide)) hl (t := t') ?_ (ih' (fuel - 1) t' t hreg (by omega))
        rw [Py.run_bind_ok hg]
        rfl

end
end PT
