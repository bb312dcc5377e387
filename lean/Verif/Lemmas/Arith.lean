import Verif.Spec.Arith
import Verif.Model.Expr
import Verif.Lemmas.Expr
import Verif.Lemmas.Proc
import Mathlib.Data.Int.Bitwise

/-!
An evaluator of arithmetic expressions, to show that what is assumed of `eval` can be met: a parser by recursive descent, proved to find the
expression of every text of the grammar (which is therefore unambiguous).
-/

namespace PT
open Spec

/-- The operator at the beginning of a text. -/
def peekOp : Str → Option (BinOp × Str)
  | '*' :: '*' :: t => some (.pow, t)
  | '*' :: t => some (.mul, t)
  | '/' :: '/' :: t => some (.div, t)
  | '<' :: '<' :: t => some (.shl, t)
  | '>' :: '>' :: t => some (.shr, t)
  | '+' :: t => some (.add, t)
  | '-' :: t => some (.sub, t)
  | '&' :: t => some (.and, t)
  | _ => none

/-- A number at the beginning of a text. -/
def parseNumber (t : Str) : Option (Ast × Str) :=
  match decNumber (t.takeWhile isDec) with
  | some n => if n ≠ 0 ∧ (t.takeWhile isDec).head? = some '0' then none else some (.num n, t.dropWhile isDec)
  | none => none

/-- A sign at the beginning of a text: whether it is a minus. -/
def peekSign : Str → Option (Bool × Str)
  | '+' :: t => some (false, t)
  | '-' :: t => some (true, t)
  | _ => none

/-- A parenthesis at the beginning of a text. -/
def peekOpen : Str → Option Str
  | '(' :: t => some t
  | _ => none

mutual
/-- An expression of a level at the beginning of a text. -/
def parseLevel : Nat → Nat → Str → Option (Ast × Str)
  | 0, _, _ => none
  | f + 1, l, t =>
    if l ≤ 3 then
      match parseLevel f (l + 1) t with
      | some (e, r) => parseLoop f l e r
      | none => none
    else if l = 4 then
      match peekSign t with
      | some (minus, r) => (parseLevel f 4 r).map fun p => (if minus then .neg p.1 else .pos p.1, p.2)
      | none => parseLevel f 5 t
    else if l = 5 then
      match parseLevel f 6 t with
      | some (e, r) =>
        match peekOp r with
        | some (.pow, r') => (parseLevel f 4 r').map fun p => (.bin .pow e p.1, p.2)
        | _ => some (e, r)
      | none => none
    else
      match peekOpen t with
      | some r =>
        match parseLevel f 0 r with
        | some (e, ')' :: r') => some (e, r')
        | _ => none
      | none => parseNumber t
/-- The operators of a level after a first operand. -/
def parseLoop : Nat → Nat → Ast → Str → Option (Ast × Str)
  | 0, _, _, _ => none
  | f + 1, l, e, t =>
    match peekOp t with
    | some (op, r) =>
      if op.level = l then
        match parseLevel f (l + 1) r with
        | some (b, r') => parseLoop f l (.bin op e b) r'
        | none => none
      else some (e, t)
    | none => some (e, t)
end

/-- From some fuel on, the result is `r`. -/
def Conv {α : Type} (f : Nat → Option α) (r : α) : Prop := ∃ N, ∀ n, N ≤ n → f n = some r

/-- What may follow an expression of a level. -/
def Stop (l : Nat) (rest : Str) : Prop := (∀ op r, peekOp rest = some (op, r) → op.level < l) ∧ ∀ c, rest.head? = some c → isDec c = false

theorem Stop.mono {l m : Nat} {rest : Str} (h : Stop l rest) (hm : l ≤ m) : Stop m rest :=
  ⟨fun op r hp => Nat.lt_of_lt_of_le (h.1 op r hp) hm, h.2⟩

theorem phrase_head {l : Nat} {t : Str} {e : Ast} (h : Phrase PyNumber pyOp id l t e) : ∃ c r, t = c :: r ∧ (isDec c = true ∨ c ∈ "(+-".toList) := by
  have app : ∀ {t : Str} (u v : Str), (∃ c r, t = c :: r ∧ (isDec c = true ∨ c ∈ "(+-".toList)) → ∃ c r, t ++ u ++ v = c :: r ∧ (isDec c = true ∨ c ∈ "(+-".toList) := by
    rintro t u v ⟨c, r, rfl, h⟩
    exact ⟨c, _, rfl, h⟩
  induction h with
  | @number t n hn =>
    obtain ⟨h1, h2⟩ := decNumber_iff.1 ⟨n, hn.1⟩
    obtain ⟨c, r, rfl⟩ := List.exists_cons_of_ne_nil h1
    exact ⟨c, r, rfl, Or.inl (h2 c (List.mem_cons_self ..))⟩
  | paren => exact ⟨_, _, rfl, Or.inr (by decide)⟩
  | pow _ _ ih => exact app _ _ ih
  | pos => exact ⟨_, _, rfl, Or.inr (by decide)⟩
  | neg => exact ⟨_, _, rfl, Or.inr (by decide)⟩
  | bin _ _ _ ih => exact app _ _ ih
  | up _ _ ih => exact ih

/-- An operator before an operand is seen. -/
theorem peek_op (o : BinOp) {l : Nat} {u : Str} {e : Ast} (h : Phrase PyNumber pyOp id l u e) (rest : Str) :
    peekOp (pyOp o ++ (u ++ rest)) = some (o, u ++ rest) := by
  obtain ⟨c, r, rfl, hc⟩ := phrase_head h
  have h1 : c ≠ '*' := by rintro rfl; revert hc; decide
  cases o <;> simp only [pyOp, List.cons_append, String.toList] <;> first | rfl | skip
  show peekOp ('*' :: c :: (r ++ rest)) = _
  unfold peekOp
  split <;> rename_i heq <;> simp_all

theorem op_head (o : BinOp) (rest : Str) : ∀ c, (pyOp o ++ rest).head? = some c → isDec c = false := by
  intro c hc
  cases o <;> (simp [pyOp] at hc; subst hc; decide)

theorem stop_op (o : BinOp) {l m : Nat} {u : Str} {e : Ast} (h : Phrase PyNumber pyOp id l u e) (rest : Str) (hm : o.level < m) :
    Stop m (pyOp o ++ (u ++ rest)) := by
  refine ⟨fun op r hp => ?_, op_head o _⟩
  rw [peek_op o h] at hp
  obtain ⟨rfl, -⟩ := by simpa using hp
  exact hm

theorem stop_close (rest : Str) (l : Nat) : Stop l (')' :: rest) := by
  refine ⟨fun op r hp => ?_, fun c hc => ?_⟩
  · simp [peekOp] at hp
  · have : c = ')' := by simpa [eq_comm] using hc
    subst this; decide

theorem conv_loop_stop {l : Nat} (e : Ast) {rest : Str} (h : Stop l rest) : Conv (parseLoop · l e rest) (e, rest) := by
  refine ⟨1, fun n hn => ?_⟩
  obtain ⟨m, rfl⟩ : ∃ m, n = m + 1 := ⟨n - 1, by omega⟩
  show parseLoop (m + 1) l e rest = _
  rw [parseLoop]
  cases hp : peekOp rest with
  | none => rfl
  | some p =>
    obtain ⟨op, r⟩ := p
    have := h.1 op r hp
    simp only []
    rw [if_neg (by omega)]

theorem Conv.step {α : Type} {f g : Nat → Option α} {r : α} (h : Conv g r) (hf : ∀ n, g n = some r → f (n + 1) = some r) : Conv f r := by
  obtain ⟨N, hN⟩ := h
  refine ⟨N + 1, fun n hn => ?_⟩
  obtain ⟨m, rfl⟩ : ∃ m, n = m + 1 := ⟨n - 1, by omega⟩
  exact hf m (hN m (by omega))

theorem Conv.step2 {α β γ : Type} {f : Nat → Option α} {g : Nat → Option β} {k : Nat → Option γ} {r : α} {s : β} {t : γ} (h : Conv g s) (h' : Conv k t)
    (hf : ∀ n, g n = some s → k n = some t → f (n + 1) = some r) : Conv f r := by
  obtain ⟨N, hN⟩ := h
  obtain ⟨M, hM⟩ := h'
  refine ⟨max N M + 1, fun n hn => ?_⟩
  obtain ⟨m, rfl⟩ : ∃ m, n = m + 1 := ⟨n - 1, by omega⟩
  exact hf m (hN m (by omega)) (hM m (by omega))

/-- What the parser does with a phrase: at the levels of loops it goes on with the loop. -/
def ParsesTo (l : Nat) (t : Str) (e : Ast) : Prop :=
  if l ≤ 3 then ∀ rest r, Stop (l + 1) rest → Conv (parseLoop · l e rest) r → Conv (parseLevel · l (t ++ rest)) r
  else ∀ rest, Stop l rest → Conv (parseLevel · l (t ++ rest)) (e, rest)

theorem ParsesTo.full {l : Nat} {t : Str} {e : Ast} (h : ParsesTo l t e) {rest : Str} (hs : Stop l rest) : Conv (parseLevel · l (t ++ rest)) (e, rest) := by
  unfold ParsesTo at h
  split at h
  · exact h rest _ (hs.mono (by omega)) (conv_loop_stop e hs)
  · exact h rest hs

theorem takeWhile_number {t : Str} (h : ∀ c ∈ t, isDec c = true) {rest : Str} (hr : ∀ c, rest.head? = some c → isDec c = false) :
    (t ++ rest).takeWhile isDec = t ∧ (t ++ rest).dropWhile isDec = rest := by
  induction t with
  | nil =>
    cases rest with
    | nil => exact ⟨rfl, rfl⟩
    | cons c r => simp [hr c rfl]
  | cons c t ih =>
    have hc := h c (List.mem_cons_self ..)
    obtain ⟨h1, h2⟩ := ih fun x hx => h x (List.mem_cons_of_mem _ hx)
    simp [hc, h1, h2]

/-- The parser finds the expression. -/
theorem phrase_parses {l : Nat} {t : Str} {e : Ast} (h : Phrase PyNumber pyOp id l t e) : ParsesTo l t e := by
  induction h with
  | @number t n hn =>
    intro rest hs
    refine ⟨1, fun m hm => ?_⟩
    obtain ⟨m, rfl⟩ : ∃ k, m = k + 1 := ⟨m - 1, by omega⟩
    obtain ⟨h1, h2⟩ := decNumber_iff.1 ⟨n, hn.1⟩
    obtain ⟨e1, e2⟩ := takeWhile_number h2 hs.2
    have hnum : parseNumber (t ++ rest) = some (.num n, rest) := by
      unfold parseNumber
      rw [e1, e2, hn.1]
      simp only []
      rw [if_neg fun h => hn.2 h.1 h.2]
    obtain ⟨c, r, rfl⟩ := List.exists_cons_of_ne_nil h1
    have hc : c ≠ '(' := by rintro rfl; exact absurd (h2 '(' (List.mem_cons_self ..)) (by decide)
    show parseLevel (m + 1) 6 (c :: (r ++ rest)) = _
    rw [parseLevel, if_neg (by decide), if_neg (by decide), if_neg (by decide)]
    have hp : peekOpen (c :: (r ++ rest)) = none := by
      unfold peekOpen; split
      · rename_i heq; simp at heq; exact absurd heq.1 hc
      · rfl
    rw [hp]
    exact hnum
  | @paren t e ht ih =>
    intro rest hs
    refine (ih.full (stop_close rest 0)).step2 (k := fun _ => some ()) ⟨0, fun _ _ => rfl⟩ fun n hn _ => ?_
    show parseLevel (n + 1) 6 ('(' :: t ++ [')'] ++ rest) = _
    rw [show ('(' :: t ++ [')'] ++ rest) = '(' :: (t ++ ')' :: rest) by simp, parseLevel, if_neg (by decide), if_neg (by decide), if_neg (by decide)]
    simp only [peekOpen, hn]
  | @pow t u a b ht hu iha ihb =>
    intro rest hs
    have hst : Stop 6 (pyOp .pow ++ (u ++ rest)) := stop_op .pow hu rest (by decide)
    have hs4 : Stop 4 rest := by
      refine ⟨fun op r hp => ?_, hs.2⟩
      have := hs.1 op r hp
      cases op <;> simp [BinOp.level] at this ⊢
    refine (iha.full hst).step2 (ihb.full hs4) fun n hn hk => ?_
    show parseLevel (n + 1) 5 (t ++ pyOp .pow ++ u ++ rest) = _
    rw [show t ++ pyOp .pow ++ u ++ rest = t ++ (pyOp .pow ++ (u ++ rest)) by simp, parseLevel, if_neg (by decide), if_neg (by decide), if_pos rfl]
    simp only [hn, peek_op .pow hu rest, hk, Option.map_some]
  | @pos t e ht ih =>
    intro rest hs
    refine (ih.full hs).step2 (k := fun _ => some ()) ⟨0, fun _ _ => rfl⟩ fun n hn _ => ?_
    show parseLevel (n + 1) 4 ('+' :: (t ++ rest)) = _
    rw [parseLevel, if_neg (by decide), if_pos rfl]
    simp only [peekSign, hn, Option.map_some, if_true, Bool.false_eq_true, if_false]
  | @neg t e ht ih =>
    intro rest hs
    refine (ih.full hs).step2 (k := fun _ => some ()) ⟨0, fun _ _ => rfl⟩ fun n hn _ => ?_
    show parseLevel (n + 1) 4 ('-' :: (t ++ rest)) = _
    rw [parseLevel, if_neg (by decide), if_pos rfl]
    simp only [peekSign, hn, Option.map_some, if_true, Bool.false_eq_true, if_false]
  | @bin o t u a b ho ht hu iha ihb =>
    have hl : o.level ≤ 3 := by cases o <;> first | exact absurd rfl ho | decide
    unfold ParsesTo at iha ⊢
    rw [if_pos hl] at iha ⊢
    intro rest r hs hr
    rw [show t ++ pyOp o ++ u ++ rest = t ++ (pyOp o ++ (u ++ rest)) by simp]
    refine iha _ r (stop_op o hu rest (by omega)) ?_
    refine (ihb.full hs).step2 hr fun n hn hk => ?_
    show parseLoop (n + 1) _ _ _ = _
    rw [parseLoop, peek_op o hu rest]
    simp only []
    rw [if_pos trivial, hn]
    exact hk
  | @up l t e hl ht ih =>
    unfold ParsesTo
    split
    · rename_i h3
      intro rest r hs hr
      refine (ih.full hs).step2 hr fun n hn hk => ?_
      show parseLevel (n + 1) _ _ = _
      rw [parseLevel, if_pos h3, hn]
      exact hk
    · rename_i h3
      intro rest hs
      have hl' : l = 4 ∨ l = 5 := by omega
      rcases hl' with rfl | rfl
      · -- the text does not begin with a sign at level 5
        refine (ih.full (hs.mono (by omega))).step fun n hn => ?_
        have hhead : ∀ c r, t = c :: r → c ≠ '+' ∧ c ≠ '-' := by
          have aux : ∀ {m : Nat} {t : Str} {e : Ast}, Phrase PyNumber pyOp id m t e → 5 ≤ m → ∀ c r, t = c :: r → c ≠ '+' ∧ c ≠ '-' := by
            intro m t e h
            induction h with
            | @number t n hn =>
              intro _ c r hr
              obtain ⟨-, h2⟩ := decNumber_iff.1 ⟨n, hn.1⟩
              have := h2 c (by rw [hr]; exact List.mem_cons_self ..)
              constructor <;> (rintro rfl; revert this; decide)
            | paren => intro _ c r hr; simp at hr; rw [← hr.1]; decide
            | @pow t u a b h6 _ ih _ =>
              intro _ c r hr
              obtain ⟨c', r', h', -⟩ := phrase_head h6
              subst h'
              simp at hr
              rw [← hr.1]
              exact ih (by omega) c' r' rfl
            | pos => intro h; omega
            | neg => intro h; omega
            | @bin o t u a b ho _ _ _ _ => intro h; exfalso; revert h ho; cases o <;> decide
            | up _ _ ih => intro h; exact ih (by omega)
          exact aux ht (by omega)
        obtain ⟨c, r, rfl, -⟩ := phrase_head ht
        obtain ⟨h1, h2⟩ := hhead c r rfl
        show parseLevel (n + 1) 4 (c :: (r ++ rest)) = _
        rw [parseLevel, if_neg (by decide), if_pos rfl]
        have hp : peekSign (c :: (r ++ rest)) = none := by
          unfold peekSign; split
          · rename_i heq; simp at heq; exact absurd heq.1 h1
          · rename_i heq; simp at heq; exact absurd heq.1 h2
          · rfl
        rw [hp]
        exact hn
      · refine (ih.full (hs.mono (by omega))).step fun n hn => ?_
        show parseLevel (n + 1) 5 (t ++ rest) = _
        rw [parseLevel, if_neg (by decide), if_neg (by decide), if_pos rfl]
        simp only [hn]
        cases hp : peekOp rest with
        | none => rfl
        | some p =>
          obtain ⟨op, q⟩ := p
          have := hs.1 op q hp
          cases op <;> first | rfl | (exact absurd this (by decide))

theorem Conv.unique {α : Type} {f : Nat → Option α} {r s : α} (h : Conv f r) (h' : Conv f s) : r = s := by
  obtain ⟨N, hN⟩ := h
  obtain ⟨M, hM⟩ := h'
  have := (hN (max N M) (by omega)).symm.trans (hM (max N M) (by omega))
  exact Option.some.inj this

open Classical in
/-- The text is read up to its end, with as much fuel as needed, and evaluated. -/
noncomputable def pyEval (t : Str) : Except EvalErr PyVal :=
  if h : ∃ e, Conv (parseLevel · 0 t) (e, []) then
    match value h.choose with
    | some (.ok v) => .ok (.int v)
    | some (.error x) => .error (.raised x)
    | none => .ok .other
  else .error .syntaxError

theorem pyArith_conv {t : Str} {e : Ast} (h : PyArith t e) : Conv (parseLevel · 0 t) (e, []) := by
  have := (phrase_parses h).full (rest := []) ⟨fun op r hp => (nomatch hp), fun c hc => (nomatch hc)⟩
  rwa [List.append_nil] at this

theorem pyEval_arith : EvalArith pyEval := by
  intro t e h
  have hex : ∃ e, Conv (parseLevel · 0 t) (e, []) := ⟨e, pyArith_conv h⟩
  have he : hex.choose = e := congrArg Prod.fst (hex.choose_spec.unique (pyArith_conv h))
  unfold pyEval
  rw [dif_pos hex, he]
  exact ⟨fun v hv => by rw [hv], fun x hx => by rw [hx]⟩

theorem parse_zeros {t : Str} {n : Nat} (hn : decNumber t = some n) (h0 : n ≠ 0) (hz : t.head? = some '0') :
    ∀ f l, parseLevel f l t = none := by
  obtain ⟨h1, h2⟩ := decNumber_iff.1 ⟨n, hn⟩
  obtain ⟨e1, -⟩ := takeWhile_number h2 (rest := []) (fun c hc => nomatch hc)
  rw [List.append_nil] at e1
  have hnum : parseNumber t = none := by
    unfold parseNumber
    rw [e1, hn]
    exact if_pos ⟨h0, hz⟩
  obtain ⟨c, r, rfl⟩ := List.exists_cons_of_ne_nil h1
  have hc : c = '0' := by simpa using hz
  subst hc
  intro f
  induction f with
  | zero => intro l; rfl
  | succ f ih =>
    intro l
    rw [parseLevel]
    simp only [ih, peekSign, peekOpen, hnum]
    split
    · rfl
    · split
      · rfl
      · split <;> rfl

theorem pyEval_zeros : EvalZeros pyEval := by
  intro t n hn h0 hz
  unfold pyEval
  rw [dif_neg]
  rintro ⟨e, N, hN⟩
  have : parseLevel N 0 t = _ := hN N (Nat.le_refl _)
  rw [parse_zeros hn h0 hz] at this
  cases this

end PT
