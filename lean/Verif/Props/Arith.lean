import Verif.Lemmas.Arith2
import Verif.Props.Expr

/-! Property C105: the value of an arithmetic expression. -/

namespace PT
open Spec

section
variable {σ : Type} {a : Arch} {ps : PyStr} {ev : Str → Except EvalErr PyVal} {getreg : Str → Py σ Nat} {readWord : Nat → Py σ Nat}
  {r : Str → Nat} {text : Str} {toks : List Tok} {e : Ast} {s u : σ}

/-- C105. A text is an expression in one way only: precedence and grouping leave no choice. -/
theorem C105_unique {t : Str} {e e' : Ast} (h : PyArith t e) (h' : PyArith t e') : e = e' := by
  have := Conv.unique (pyArith_conv h) (pyArith_conv h')
  exact congrArg Prod.fst this

/-- C105. `Gdb.parseInteger` gives the value of the expression typed, with the values of registers, reduced to a word. -/
theorem C105_value (hev : EvalArith ev) (hx : Expression ps text toks) (hreg : Reads getreg r (registers toks) s u) (he : GdbArith r toks e)
    {v : Int} (hv : value e = some (.ok v)) :
    parseInteger a ps ev getreg readWord text s = (.ok (v % 2 ^ (8 * a.W)).toNat, u) := by
  rw [parseInteger_toks hx hreg]
  unfold evalFinal
  simp only [gdbArith_head he, Bool.false_eq_true, if_false]
  rw [(hev _ _ (gdbPhrase_py he)).1 v hv]
  simp only [truncateVal, truncate_mod]
  rfl

/-- C105. A division by zero or a shift by a negative number raises its exception, after the registers were read. -/
theorem C105_error (hev : EvalArith ev) (hx : Expression ps text toks) (hreg : Reads getreg r (registers toks) s u) (he : GdbArith r toks e)
    {x : Exc} (hv : value e = some (.error x)) :
    parseInteger a ps ev getreg readWord text s = (.error x, u) := by
  rw [parseInteger_toks hx hreg]
  unfold evalFinal
  simp only [gdbArith_head he, Bool.false_eq_true, if_false]
  rw [(hev _ _ (gdbPhrase_py he)).2 x hv]
  rfl

/-- C105. With a `*` in front the word at the value of everything that follows is read: `*x+8` is the word at `x+8`. -/
theorem C105_pointer (hev : EvalArith ev) (hx : Expression ps text (.op '*' :: toks)) (hreg : Reads getreg r (registers toks) s u)
    (he : GdbArith r toks e) :
    (∀ v, value e = some (.ok v) → parseInteger a ps ev getreg readWord text s = readWord (v % 2 ^ (8 * a.W)).toNat u) ∧
    ∀ x, value e = some (.error x) → parseInteger a ps ev getreg readWord text s = (.error x, u) := by
  refine ⟨fun v hv => (C48_pointer hx hreg).2 v ((hev _ _ (gdbPhrase_py he)).1 v hv), fun x hv => ?_⟩
  rw [parseInteger_toks hx (show Reads getreg r (registers (.op '*' :: toks)) s u from hreg), List.flatMap_cons]
  change evalFinal a ev readWord ('*' :: toks.flatMap (Tok.decimal r)) u = _
  unfold evalFinal
  have hf : (('*' :: toks.flatMap (Tok.decimal r)).head? == some '*') = true := rfl
  simp only [hf, if_true]
  rw [show List.drop 1 ('*' :: toks.flatMap (Tok.decimal r)) = toks.flatMap (Tok.decimal r) from rfl, (hev _ _ (gdbPhrase_py he)).2 x hv]
  rfl

/-- C105. A decimal number that begins with a superfluous zero is refused, where hexadecimal numbers may begin with zeros. -/
theorem C105_zeros_refuted (hev : EvalZeros ev) {ds : Str} {n : Nat} (hx : Expression ps text [.dec ds]) (hd : decNumber ds = some n) (hn : n ≠ 0)
    (hz : ds.head? = some '0') : parseInteger a ps ev getreg readWord text s = (.error .value, s) := by
  refine (C48_expression (r := fun _ => 0) hx (.nil s) (by rintro rest h; cases h)).1 ?_
  have := hev ds n hd hn hz
  simpa [Tok.decimal] using this

/-! ### `parseExpression` -/

/-- `text` is an expression in which values are named without `$`. -/
structure NamedExpression (ps : PyStr) (text : Str) (toks : List Tok) : Prop where
  typed : ∃ y, Stripped ps.space text y ∧ ' ' ∉ y ∧ ps.lower y = toks.flatMap Tok.named
  ne : toks ≠ []
  ok : ∀ x ∈ toks, x.Ok
  plain : ∀ x ∈ toks, x.Plain
  sep : Separated toks

/-- C105. `parseExpression` gives the value of the expression, not reduced to a word, or raises its exception. -/
theorem C105_expression (hev : EvalArith ev) (hx : NamedExpression ps text toks) (hreg : Reads getreg r (registers toks) s u)
    (he : GdbArith r toks e) :
    (∀ v, value e = some (.ok v) → parseExpression ps ev getreg text s = (.ok (.int v), u)) ∧
    ∀ x, value e = some (.error x) → parseExpression ps ev getreg text s = (.error x, u) := by
  obtain ⟨⟨y, h1, h2, h3⟩, hne, hok, hpl, hsep⟩ := hx
  unfold parseExpression
  simp only []
  rw [stripped_iff.1 h1, if_neg h2, h3]
  rw [Py.run_bind_ok (reSub_named_hex toks hok hpl hsep _ s (Nat.le_refl _)), Py.run_bind_ok (reSub_named toks hok hpl hsep _ s u hreg (Nat.le_refl _)),
    plain_match hne hok, Bool.not_true, if_neg (show ¬ (false = true) by decide), doubleSlash_toks hok]
  have hp := hev _ _ (gdbPhrase_py he)
  refine ⟨fun v hv => ?_, fun x hv => ?_⟩
  · rw [hp.1 v hv]; rfl
  · rw [hp.2 x hv]; rfl

end

/-! ### Examples -/

/-- `-$ax+0x10/3<<1` is `(-$ax + (0x10 / 3)) << 1`. -/
def exampleToks : List Tok := [.op '-', .reg "ax".toList, .op '+', .hex "10".toList 16, .op '/', .dec "3".toList, .op '<', .op '<', .dec "1".toList]

def exampleAst (n : Nat) : Ast := .bin .shl (.bin .add (.neg (.num n)) (.bin .div (.num 16) (.num 3))) (.num 1)

theorem up_to {α : Type} {number : List α → Nat → Prop} {op : BinOp → List α} {sym : Char → α} {t : List α} {e : Ast} :
    ∀ (k : Nat) {l : Nat}, l + k ≤ 6 → Phrase number op sym (l + k) t e → Phrase number op sym l t e
  | 0, _, _, h => h
  | k + 1, l, hl, h => .up (by omega) (up_to k (by omega) (by rw [show l + 1 + k = l + (k + 1) by omega]; exact h))

theorem exampleArith (r : Str → Nat) : GdbArith r exampleToks (exampleAst (r "ax".toList)) := by
  have one : Phrase (GdbNumber r) gdbOp Tok.op 2 [.dec "1".toList] (.num 1) :=
    up_to 4 (by decide) (.number (.dec ⟨by decide, fun _ => by decide⟩))
  have three : Phrase (GdbNumber r) gdbOp Tok.op 4 [.dec "3".toList] (.num 3) :=
    up_to 2 (by decide) (.number (.dec ⟨by decide, fun _ => by decide⟩))
  have sixteen : Phrase (GdbNumber r) gdbOp Tok.op 3 [.hex "10".toList 16] (.num 16) := up_to 3 (by decide) (.number .hex)
  have ax : Phrase (GdbNumber r) gdbOp Tok.op 4 [.reg "ax".toList] (.num (r "ax".toList)) := up_to 2 (by decide) (.number .reg)
  have div := Phrase.bin (o := .div) (by decide) sixteen three
  have add := Phrase.bin (o := .add) (by decide) (up_to 2 (l := 2) (by decide) (.neg ax)) div
  have shl := Phrase.bin (o := .shl) (by decide) (up_to 1 (l := 1) (by decide) add) one
  exact up_to 1 (l := 0) (by decide) shl

/-- With 7 in the register it is -4, as a word of 64 bits. -/
example : value (exampleAst 7) = some (.ok (-4)) := by decide

/-- Division rounds down, a power binds tighter than a sign, shifts bind weaker than sums. -/
example : value (.bin .div (.neg (.num 7)) (.num 2)) = some (.ok (-4)) ∧
    value (.neg (.bin .pow (.num 2) (.num 2))) = some (.ok (-4)) ∧
    value (.bin .shl (.num 1) (.bin .add (.num 2) (.num 3))) = some (.ok 32) ∧
    value (.bin .div (.num 1) (.num 0)) = some (.error .zeroDivision) ∧
    value (.bin .shr (.num 1) (.neg (.num 1))) = some (.error .value) := by decide

theorem exampleMinusPower : PyArith "-2**2".toList (.neg (.bin .pow (.num 2) (.num 2))) := by
  have two : Phrase PyNumber pyOp id 6 "2".toList (.num 2) := .number ⟨by decide, fun _ => by decide⟩
  have := Phrase.pow two (up_to 2 (l := 4) (by decide) two)
  exact up_to 4 (l := 0) (by decide) (.neg (.up (by decide) this))

example := C105_unique exampleMinusPower exampleMinusPower

/-- The hypotheses are met: `eval` is the evaluator of the grammar, the register is read from the state. -/
example : parseInteger (σ := Nat) ⟨true, false⟩ asciiStr pyEval (fun _ n => (.ok n, n)) (fun _ => Py.raise .value) " -$ax+0x10/3<<1".toList 7 =
    (.ok (2 ^ 64 - 4), 7) := by
  have hx : Expression asciiStr " -$ax+0x10/3<<1".toList exampleToks := by
    refine ⟨⟨"-$ax+0x10/3<<1".toList, stripped_iff.2 (by decide), by decide, by decide⟩, by decide, ?_, ?_⟩
    · intro x hx
      simp only [exampleToks, List.mem_cons, List.not_mem_nil, or_false] at hx
      rcases hx with rfl | rfl | rfl | rfl | rfl | rfl | rfl | rfl | rfl
      · show _ ∈ _; decide
      · exact ⟨'a', ['x'], rfl, by decide, by decide, by decide⟩
      · show _ ∈ _; decide
      · show hexNumber _ = _; decide
      · show _ ∈ _; decide
      · exact ⟨3, by decide⟩
      · show _ ∈ _; decide
      · show _ ∈ _; decide
      · exact ⟨1, by decide⟩
    · simp [exampleToks, Separated, Tok.isOp]
  have := C105_value (σ := Nat) (a := ⟨true, false⟩) (ps := asciiStr) (ev := pyEval) (getreg := fun _ n => (.ok n, n)) (readWord := fun _ => Py.raise .value)
    (r := fun _ => 7) (s := 7) (u := 7) pyEval_arith hx (.cons rfl (.nil 7)) (exampleArith _) (v := -4) (by decide)
  rw [this]
  decide

/-- `1/0` is a quotient. -/
theorem exampleZero (r : Str → Nat) : GdbArith r [.dec "1".toList, .op '/', .dec "0".toList] (.bin .div (.num 1) (.num 0)) := by
  have x : Phrase (GdbNumber r) gdbOp Tok.op 3 [.dec "1".toList] (.num 1) := up_to 3 (by decide) (.number (.dec ⟨by decide, fun _ => by decide⟩))
  have y : Phrase (GdbNumber r) gdbOp Tok.op 4 [.dec "0".toList] (.num 0) := up_to 2 (by decide) (.number (.dec ⟨by decide, fun h => by simp at h⟩))
  exact up_to 3 (l := 0) (by decide) (Phrase.bin (o := .div) (by decide) x y)

example : parseInteger (σ := Nat) ⟨true, false⟩ asciiStr pyEval (fun _ n => (.ok n, n)) (fun _ => Py.raise .value) "1/0".toList 7 =
    (.error .zeroDivision, 7) := by
  refine C105_error (r := fun _ => 7) pyEval_arith ?_ (.nil 7) (exampleZero _) (by decide)
  refine ⟨⟨"1/0".toList, stripped_iff.2 (by decide), by decide, by decide⟩, by decide, ?_, ?_⟩
  · intro x hx
    simp only [List.mem_cons, List.not_mem_nil, or_false] at hx
    rcases hx with rfl | rfl | rfl
    · exact ⟨1, by decide⟩
    · show _ ∈ _; decide
    · exact ⟨0, by decide⟩
  · simp [Separated, Tok.isOp]

/-- `*$sp`: the word that a register points to. -/
example (readWord : Nat → Py Nat Nat) :
    parseInteger (σ := Nat) ⟨true, false⟩ asciiStr pyEval (fun _ n => (.ok n, n)) readWord "*$sp".toList 4096 = readWord 4096 4096 := by
  refine (C105_pointer (a := ⟨true, false⟩) (ps := asciiStr) (getreg := fun _ n => (.ok n, n)) (readWord := readWord) (text := "*$sp".toList)
    (toks := [.reg "sp".toList]) (r := fun _ => 4096) (e := .num 4096) (s := 4096) (u := 4096)
    pyEval_arith ?_ (.cons rfl (.nil _)) (up_to 6 (by decide) (.number .reg))).1 4096 rfl
  refine ⟨⟨"*$sp".toList, stripped_iff.2 (by decide), by decide, by decide⟩, by decide, ?_, ?_⟩
  · intro x hx
    simp only [List.mem_cons, List.not_mem_nil, or_false] at hx
    rcases hx with rfl | rfl
    · show _ ∈ _; decide
    · exact ⟨'s', ['p'], rfl, by decide, by decide, by decide⟩
  · simp [Separated, Tok.isOp]

/-- `010` is refused. -/
example : parseInteger (σ := Unit) ⟨true, false⟩ asciiStr pyEval (fun _ => Py.raise .value) (fun _ => Py.raise .value) "010".toList () = (.error .value, ()) := by
  refine C105_zeros_refuted (ds := "010".toList) (n := 10) pyEval_zeros ?_ (by decide) (by decide) rfl
  refine ⟨⟨"010".toList, stripped_iff.2 (by decide), by decide, by decide⟩, by decide, ?_, trivial⟩
  intro x hx
  have : x = .dec "010".toList := by simpa using hx
  subst this
  exact ⟨10, by decide⟩

/-- Names without `$`: `edx+0x8`. -/
example : parseExpression (σ := Nat) asciiStr pyEval (fun _ n => (.ok n, n)) "EDX+0x8".toList 5 = (.ok (.int 13), 5) := by
  have hx : NamedExpression asciiStr "EDX+0x8".toList [.reg "edx".toList, .op '+', .hex "8".toList 8] := by
    refine ⟨⟨"EDX+0x8".toList, stripped_iff.2 (by decide), by decide, by decide⟩, by decide, ?_, ?_, ?_⟩
    · intro x hx
      simp only [List.mem_cons, List.not_mem_nil, or_false] at hx
      rcases hx with rfl | rfl | rfl
      · exact ⟨'e', "dx".toList, rfl, by decide, by decide, by decide⟩
      · show _ ∈ _; decide
      · show hexNumber _ = _; decide
    · intro x hx
      simp only [List.mem_cons, List.not_mem_nil, or_false] at hx
      rcases hx with rfl | rfl | rfl
      · show ¬ _ <:+: _; decide
      · trivial
      · trivial
    · simp [Separated, Tok.isOp]
  have he : GdbArith (fun _ => 5) [.reg "edx".toList, .op '+', .hex "8".toList 8] (.bin .add (.num 5) (.num 8)) := by
    have x : Phrase (GdbNumber fun _ => 5) gdbOp Tok.op 2 [.reg "edx".toList] (.num 5) := up_to 4 (by decide) (.number .reg)
    have y : Phrase (GdbNumber fun _ => 5) gdbOp Tok.op 3 [.hex "8".toList 8] (.num 8) := up_to 3 (by decide) (.number .hex)
    exact up_to 2 (l := 0) (by decide) (Phrase.bin (o := .add) (by decide) x y)
  exact (C105_expression (σ := Nat) (ps := asciiStr) (ev := pyEval) (getreg := fun _ n => (.ok n, n)) (r := fun _ => 5) (s := 5) (u := 5)
    pyEval_arith hx (.cons rfl (.nil 5)) he).1 13 (by decide)

end PT
