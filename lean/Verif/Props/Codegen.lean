import Verif.Model.Codegen
import Verif.Spec.Codegen
import Verif.Lemmas.Split
import Verif.Lemmas.Dict
import Verif.Props.GdbCmd

/-! C118: the generator of the table of prototypes. -/

namespace PT
open Spec

/-! ### Text -/

theorem dropPrefix_append (p s : Str) : dropPrefix p (p ++ s) = some s := by
  induction p with
  | nil => cases s <;> rfl
  | cons c p ih => rw [List.cons_append, dropPrefix, if_pos rfl, ih]

theorem dropPrefix_some {p s r : Str} (h : dropPrefix p s = some r) : s = p ++ r := by
  induction p generalizing s with
  | nil => cases s <;> (injection h with h)
  | cons c p ih =>
    cases s with
    | nil => cases h
    | cons d s =>
      rw [dropPrefix] at h
      by_cases hc : c = d
      · rw [if_pos hc] at h; rw [ih h, hc]; rfl
      · rw [if_neg hc] at h; cases h

theorem dropPrefix_none {p s : Str} (h : ¬ p <+: s) : dropPrefix p s = none := by
  cases hd : dropPrefix p s with
  | none => rfl
  | some r => exact absurd ⟨r, (dropPrefix_some hd).symm⟩ h

theorem upTo_found {c : Char} {a : Str} (h : c ∉ a) (s : Str) : upTo c (a ++ c :: s) = some (a, s) := by
  induction a with
  | nil => rw [List.nil_append, upTo, if_pos rfl]
  | cons x a ih =>
    rw [List.cons_append, upTo, if_neg (fun e => h (by rw [e]; exact List.mem_cons_self ..)), ih fun hc => h (List.mem_cons_of_mem _ hc)]
    rfl

/-! ### Declarations in a header -/

theorem findDecls_line (line rest : Str) (hl : '\n' ∉ line) : ∀ n, line.length < n →
    findDecls n false (line ++ '\n' :: rest) = findDecls (n - line.length - 1) true rest := by
  induction line with
  | nil =>
    intro n hn
    obtain ⟨n, rfl⟩ : ∃ m, n = m + 1 := ⟨n - 1, by omega⟩
    rw [List.nil_append, findDecls]
    rfl
  | cons c line ih =>
    intro n hn
    rw [List.length_cons] at hn
    obtain ⟨n, rfl⟩ : ∃ m, n = m + 1 := ⟨n - 1, by omega⟩
    have hc : (c == '\n') = false := by
      rw [beq_eq_false_iff_ne]
      rintro rfl
      exact hl (List.mem_cons_self ..)
    rw [List.cons_append, findDecls]
    simp only [Bool.false_eq_true, if_false]
    rw [hc, ih (fun h => hl (List.mem_cons_of_mem _ h)) n (by omega), List.length_cons]
    congr 1
    omega

theorem findDecls_eq {source : Str} {ds : List (Str × Str)} (h : Header source ds) : ∀ n, source.length < n → findDecls n true source = ds := by
  induction h with
  | nil =>
    intro n hn
    obtain ⟨n, rfl⟩ : ∃ m, n = m + 1 := ⟨n - 1, by simp at hn; omega⟩
    rfl
  | other hl hno _ ih =>
    rename_i line rest ds _
    intro n hn
    rw [List.length_append, List.length_cons] at hn
    have hm : matchDecl (line ++ '\n' :: rest) = none := by
      unfold matchDecl
      rw [dropPrefix_none]
      rintro ⟨r, hr⟩
      apply hno
      have h1 : "asmlinkage long sys".toList <+: line ++ '\n' :: rest := ⟨r, hr⟩
      have h2 : line <+: line ++ '\n' :: rest := ⟨_, rfl⟩
      rcases List.prefix_or_prefix_of_prefix h1 h2 with h | ⟨u, hu⟩
      · exact h
      · exfalso
        cases u with
        | nil =>
          rw [List.append_nil] at hu
          rw [hu] at hno
          exact hno (List.prefix_refl _)
        | cons c u =>
          rw [← hu, List.append_assoc] at hr
          have := List.append_cancel_left hr
          rw [List.cons_append] at this
          injection this with hc _
          subst hc
          have hmem : '\n' ∈ "asmlinkage long sys".toList := by rw [← hu]; simp
          exact absurd hmem (by decide)
    obtain ⟨n, rfl⟩ : ∃ m, n = m + 1 := ⟨n - 1, by omega⟩
    cases line with
    | nil =>
      rw [List.nil_append] at hm ⊢
      rw [findDecls]
      simp only [hm, if_true]
      exact ih n (by simp at hn; omega)
    | cons c line =>
      have hc : (c == '\n') = false := by
        rw [beq_eq_false_iff_ne]
        rintro rfl
        exact hl (List.mem_cons_self ..)
      rw [List.cons_append] at hm ⊢
      rw [findDecls]
      simp only [hm, if_true]
      rw [List.length_cons] at hn
      rw [hc, findDecls_line line rest (fun h => hl (List.mem_cons_of_mem _ h)) n (by omega)]
      exact ih _ (by omega)
  | decl hp hn ha ht _ ih =>
    rename_i pre name args tail rest ds _
    intro n hlen
    simp only [List.length_append, List.length_cons] at hlen
    have hm : matchDecl ("asmlinkage long sys".toList ++ (pre ++ (name ++ '(' :: (args ++ ')' :: (tail ++ '\n' :: rest))))) =
        some (name, args, tail ++ '\n' :: rest) := by
      unfold matchDecl
      rw [dropPrefix_append]
      have hw : dropPrefix ['_'] (withoutPrefix "32".toList (pre ++ (name ++ '(' :: (args ++ ')' :: (tail ++ '\n' :: rest))))) =
          some (name ++ '(' :: (args ++ ')' :: (tail ++ '\n' :: rest))) := by
        unfold withoutPrefix
        rcases hp with rfl | rfl
        · have : dropPrefix "32".toList ("_".toList ++ (name ++ '(' :: (args ++ ')' :: (tail ++ '\n' :: rest)))) = none := by
            apply dropPrefix_none
            rintro ⟨r, hr⟩
            injection hr with hr _
            exact absurd hr (by decide)
          rw [this]
          exact dropPrefix_append ['_'] _
        · have : dropPrefix "32".toList ("32_".toList ++ (name ++ '(' :: (args ++ ')' :: (tail ++ '\n' :: rest)))) =
              some ('_' :: (name ++ '(' :: (args ++ ')' :: (tail ++ '\n' :: rest)))) := dropPrefix_append "32".toList _
          rw [this]
          exact dropPrefix_append ['_'] _
      simp only [hw]
      rw [upTo_found hn]
      simp only
      rw [upTo_found ha]
      rfl
    obtain ⟨n, rfl⟩ : ∃ m, n = m + 1 := ⟨n - 1, by omega⟩
    rw [findDecls.eq_def]
    simp only [hm, if_true]
    rw [findDecls_line tail rest ht n (by omega), ih _ (by omega)]

/-! ### Removing the mark -/

theorem removeAll_none {mark t : Str} (h : ¬ mark <:+: t) : ∀ n, t.length < n → removeAll mark n t = t := by
  induction t with
  | nil =>
    intro n hn
    obtain ⟨n, rfl⟩ : ∃ m, n = m + 1 := ⟨n - 1, by simp at hn; omega⟩
    rw [removeAll, dropPrefix_none (fun hp => h hp.isInfix)]
  | cons c t ih =>
    intro n hn
    rw [List.length_cons] at hn
    obtain ⟨n, rfl⟩ : ∃ m, n = m + 1 := ⟨n - 1, by omega⟩
    rw [removeAll, dropPrefix_none (fun hp => h hp.isInfix)]
    simp only
    rw [ih (fun hi => h (hi.trans (List.suffix_cons c t).isInfix)) n (by omega)]

/-- The mark does not begin inside a text without it that is followed by the mark. -/
theorem mark_border {a rest : Str} (hne : a ≠ []) (h : ¬ "__user".toList <:+: a) : ¬ "__user".toList <+: a ++ "__user".toList ++ rest := by
  intro hp
  rw [List.append_assoc] at hp
  rcases List.prefix_or_prefix_of_prefix hp (show a <+: a ++ ("__user".toList ++ rest) from ⟨_, rfl⟩) with h1 | h1
  · exact h h1.isInfix
  · have hl := h1.length_le
    have key : ∀ k, k < 6 → 0 < k → ∃ i < 6, i + k < 6 ∧ "__user".toList[i + k]? ≠ "__user".toList[i]? := by decide
    have h6 : "__user".toList.length = 6 := rfl
    have hlt : a.length < 6 := by
      rcases Nat.lt_or_ge a.length 6 with h2 | h2
      · exact h2
      · exfalso
        have : a = "__user".toList := h1.eq_of_length (by omega)
        exact h (by rw [this]; exact List.infix_refl _)
    obtain ⟨i, _, hi, hd⟩ := key a.length hlt (List.length_pos_iff.2 hne)
    apply hd
    obtain ⟨r, hr⟩ := hp
    have e1 : ("__user".toList ++ r)[i + a.length]? = "__user".toList[i + a.length]? := List.getElem?_append_left (by omega)
    rw [← e1, hr, Nat.add_comm, List.getElem?_append_right (by omega), List.getElem?_append_left (by omega)]
    congr 1
    omega

theorem removeAll_eq {raw bare : Str} (h : Without "__user".toList raw bare) : ∀ n, raw.length < n → removeAll "__user".toList n raw = bare := by
  induction h with
  | last h => exact removeAll_none h
  | mark h _ ih =>
    rename_i t rest out _
    intro n hn
    simp only [List.length_append] at hn
    have go : ∀ (t : Str), ¬ "__user".toList <:+: t → ∀ n, t.length + 6 + rest.length < n →
        removeAll "__user".toList n (t ++ "__user".toList ++ rest) = t ++ out := by
      intro t
      induction t with
      | nil =>
        intro _ n hn
        obtain ⟨n, rfl⟩ : ∃ m, n = m + 1 := ⟨n - 1, by omega⟩
        rw [List.nil_append, removeAll.eq_def]
        simp only [dropPrefix_append]
        exact ih n (by simp at hn; omega)
      | cons c t iht =>
        intro hno n hn
        rw [List.length_cons] at hn
        obtain ⟨n, rfl⟩ : ∃ m, n = m + 1 := ⟨n - 1, by omega⟩
        have hd := dropPrefix_none (mark_border (rest := rest) (by simp) hno)
        rw [List.cons_append, List.cons_append] at hd ⊢
        rw [removeAll]
        simp only [hd, List.cons_append]
        rw [iht (fun hi => hno (hi.trans (List.suffix_cons c t).isInfix)) n (by omega)]
    exact go t h n (by have : "__user".toList.length = 6 := rfl; omega)

/-! ### Parameters -/

/-- A parameter whose name, if it has one, cannot be taken for a type, and whose type, if it has no name, cannot be taken for a name. -/
def Clear (p : Str × Str) : Prop :=
  (p.2 ≠ [] → ∀ e ∈ ["long".toList, "int".toList, "size_t".toList], ¬ e <:+ p.2) ∧
  (p.2 = [] → ∃ e ∈ ["*".toList, "long".toList, "int".toList, "size_t".toList], e <:+ p.1)

theorem identifier_ne {name : Str} (h : Identifier name) {c : Char} (hc : c ∈ name) : c ≠ ' ' ∧ c ≠ '*' ∧ pySpace8 c = false := by
  have := h.2 c hc
  refine ⟨?_, ?_, ?_⟩
  · rintro rfl
    exact absurd this (by decide)
  · rintro rfl
    exact absurd this (by decide)
  · cases hs : pySpace8 c with
    | false => rfl
    | true =>
      exfalso
      unfold pySpace8 at hs
      simp only [Bool.or_eq_true, decide_eq_true_eq] at hs
      rcases hs with ((((rfl | rfl) | rfl) | rfl) | rfl) | rfl <;> exact absurd this (by decide)

theorem suffix_sep {e x name : Str} {sep : Char} (h : e <:+ x ++ sep :: name) (hs : sep ∉ e) : e <:+ name := by
  rcases List.suffix_or_suffix_of_suffix h (show sep :: name <:+ x ++ sep :: name from ⟨x, rfl⟩) with h1 | h1
  · rcases List.suffix_cons_iff.1 h1 with h2 | h2
    · exact absurd (by rw [h2]; exact List.mem_cons_self ..) hs
    · exact h2
  · exact absurd (h1.subset (List.mem_cons_self ..)) hs

theorem splitName_eq {x name : Str} (hn : Identifier name) (hx : ∀ c, x.getLast? = some c → c = ' ' ∨ c = '*') : splitName (x ++ name) = some (x, name) := by
  unfold splitName
  have h1 : (x ++ name).reverse.takeWhile (fun c => c != ' ' && c != '*') = name.reverse := by
    rw [List.reverse_append, List.takeWhile_append_of_pos]
    · cases hr : x.reverse with
      | nil => simp
      | cons c r =>
        have : x.getLast? = some c := by rw [← List.head?_reverse, hr]; rfl
        rcases hx c this with rfl | rfl <;> simp
    · intro c hc
      have := identifier_ne hn (List.mem_reverse.1 hc)
      simp [this.1, this.2.1]
  simp only [h1, List.reverse_reverse]
  rw [if_neg hn.1]
  simp

theorem strip_item {pre ty post : Str} (hpre : ∀ c ∈ pre, c = ' ') (hpost : ∀ c ∈ post, c = ' ') (hf : ∀ c, ty.head? = some c → pySpace8 c = false)
    (hl : ∀ c, ty.getLast? = some c → pySpace8 c = false) : strip pySpace8 (pre ++ ty ++ post) = ty :=
  stripped_iff.1 ⟨⟨pre, post, rfl, (fun c hc => by rw [hpre c hc]; rfl), (fun c hc => by rw [hpost c hc]; rfl)⟩, hf, hl⟩

theorem codegenArg_eq (call : Str) {pre text : Str} {p : Str × Str} (hpre : pre = [] ∨ pre = [' ']) (hd : Declares text p.1 p.2)
    (hc : ∀ c ∈ text, c = ' ' ∨ pySpace8 c = false) (hp : Clear p) : codegenArg call (pre ++ text) = .ok (tableParam call p) := by
  obtain ⟨ty, name⟩ := p
  have hpre' : ∀ c ∈ pre, c = ' ' := by
    rcases hpre with rfl | rfl
    · intro c h; cases h
    · intro c h; exact List.mem_singleton.1 h
  have hend : ∀ (t n : Str), (if (call = "pipe".toList ∨ call = "pipe2".toList) ∧ t = "int *".toList then (.ok ("int[2]".toList, n) : Except Exc (Str × Str)) else .ok (t, n)) =
      .ok (tableParam call (t, n)) := by
    intro t n
    unfold tableParam
    split <;> rfl
  have hedge : ∀ (c : Char), c ∈ text → c ≠ ' ' → pySpace8 c = false := by
    intro c h1 h2
    rcases hc c h1 with h | h
    · exact absurd h h2
    · exact h
  have named : ∀ (x : Str), Identifier name → pre ++ text = x ++ name → (∃ c, x.getLast? = some c ∧ (c = ' ' ∨ c = '*')) → strip pySpace8 x = ty →
      codegenArg call (pre ++ text) = .ok (tableParam call (ty, name)) := by
    intro x hn hx hlast hs
    obtain ⟨sep, hsep, hsep'⟩ := hlast
    have hno : (["*".toList, "long".toList, "int".toList, "size_t".toList].any fun e => e.isSuffixOf (pre ++ text)) = false := by
      rw [List.any_eq_false]
      intro e he
      simp only [Bool.not_eq_true]
      rw [← Bool.not_eq_true]
      intro hsuf
      have hsuf := List.isSuffixOf_iff_suffix.1 hsuf
      rw [hx] at hsuf
      rcases List.mem_cons.1 he with rfl | he
      · have h1 : ['*'] <:+ name := by
          rcases List.suffix_or_suffix_of_suffix hsuf (show name <:+ x ++ name from ⟨x, rfl⟩) with h | h
          · exact h
          · have := h.length_le
            have h2 := List.length_pos_iff.2 hn.1
            exact (h.eq_of_length (by simp at this ⊢; omega)) ▸ List.suffix_refl _
        exact (identifier_ne hn (h1.subset (List.mem_singleton.2 rfl))).2.1 rfl
      · obtain ⟨y, rfl⟩ : ∃ y, x = y ++ [sep] := by
          cases hr : x.reverse with
          | nil =>
            rw [← List.head?_reverse, hr] at hsep
            cases hsep
          | cons c r =>
            rw [← List.head?_reverse, hr] at hsep
            injection hsep with hsep
            subst hsep
            exact ⟨r.reverse, by have := congrArg List.reverse hr; simpa using this⟩
        rw [List.append_assoc, List.singleton_append] at hsuf
        have hsepe : sep ∉ e := by
          have hall : ∀ e ∈ ["long".toList, "int".toList, "size_t".toList], ' ' ∉ e ∧ '*' ∉ e := by decide
          rcases hsep' with rfl | rfl
          · exact (hall e he).1
          · exact (hall e he).2
        exact hp.1 hn.1 e he (suffix_sep hsuf hsepe)
    unfold codegenArg
    simp only [hno, Bool.false_eq_true, if_false]
    rw [hx, splitName_eq hn (fun c h => by rw [hsep] at h; injection h with h; exact h ▸ hsep')]
    simp only [hs]
    rw [(stripped_iff (space := pySpace8) (t := name) (y := name)).1 ⟨⟨[], [], by simp, by simp, by simp⟩, fun c h => (identifier_ne hn (List.mem_of_head? h)).2.2, fun c h => (identifier_ne hn (List.mem_of_getLast? h)).2.2⟩]
    exact hend ty name
  cases hd with
  | plain hn hf hl =>
    obtain ⟨c, hl, hcs⟩ := hl
    simp only at hn hf hl named hc hedge
    refine named (pre ++ ty ++ [' ']) hn (by simp) ⟨' ', by simp, Or.inl rfl⟩ ?_
    refine strip_item hpre' (fun c h => List.mem_singleton.1 h) (fun d h => hedge d ?_ ?_) (fun d h => hedge d ?_ ?_)
    · exact List.mem_append_left _ (List.mem_of_head? h)
    · rintro rfl; exact hf h
    · exact List.mem_append_left _ (List.mem_of_getLast? h)
    · rw [hl] at h; injection h with h; rw [← h]; exact hcs
  | pointer hn hf hl =>
    simp only at hn hf hl named hc hedge
    refine named (pre ++ ty) hn (by simp) ⟨'*', ?_, Or.inr rfl⟩ ?_
    · rw [List.getLast?_append, hl]; rfl
    · have := strip_item (post := []) hpre' (fun c h => by cases h) (fun d h => hedge d (List.mem_append_left _ (List.mem_of_head? h)) (by rintro rfl; exact hf h))
        (fun d h => hedge d (List.mem_append_left _ (List.mem_of_getLast? h)) (by rw [hl] at h; injection h with h; rw [← h]; decide))
      rwa [List.append_nil] at this
  | unnamed hf hl =>
    obtain ⟨c, hl, hcs⟩ := hl
    simp only at hf hl hc hedge
    obtain ⟨e, he, hsuf⟩ := hp.2 rfl
    have hyes : (["*".toList, "long".toList, "int".toList, "size_t".toList].any fun e => e.isSuffixOf (pre ++ ty)) = true := by
      rw [List.any_eq_true]
      exact ⟨e, he, List.isSuffixOf_iff_suffix.2 (hsuf.trans ⟨pre, rfl⟩)⟩
    unfold codegenArg
    simp only [hyes, if_true]
    have := strip_item (post := []) hpre' (fun c h => by cases h) (fun d h => hedge d (List.mem_of_head? h) (by rintro rfl; exact hf h))
        (fun d h => hedge d (List.mem_of_getLast? h) (by rw [hl] at h; injection h with h; rw [← h]; exact hcs))
    rw [List.append_nil] at this
    rw [this]
    exact hend ty []

theorem mem_takeWhile_pos {q : Char → Bool} {l : Str} {c : Char} (h : c ∈ l.takeWhile q) : q c = true := by
  induction l with
  | nil => cases h
  | cons x l ih =>
    cases hx : q x with
    | false =>
      rw [List.takeWhile_cons_of_neg (by simp [hx])] at h
      cases h
    | true =>
      rw [List.takeWhile_cons_of_pos hx] at h
      rcases List.mem_cons.1 h with rfl | h
      · exact hx
      · exact ih h

theorem words_of {space : Char → Bool} {t : Str} {ws : List Str} (h : splitWs space t = ws) : Words space t ws := by
  subst h
  have : ∃ ws, Words space t ws := by
    induction hn : t.length using Nat.strongRecOn generalizing t with
    | ind n ih =>
      subst hn
      have e1 := List.takeWhile_append_dropWhile (p := space) (l := t)
      by_cases hd : t.dropWhile space = []
      · rw [hd, List.append_nil] at e1
        rw [← e1]
        exact ⟨[], .nil fun c hc => mem_takeWhile_pos hc⟩
      · have e2 := List.takeWhile_append_dropWhile (p := fun c => !space c) (l := t.dropWhile space)
        have hne : (t.dropWhile space).takeWhile (fun c => !space c) ≠ [] := by
          cases hh : t.dropWhile space with
          | nil => exact absurd hh hd
          | cons c r =>
            have : space c = false := by
              have := List.head?_dropWhile_not space t
              rw [hh] at this
              simpa using this
            rw [List.takeWhile_cons_of_pos (by simp [this])]
            exact List.cons_ne_nil _ _
        obtain ⟨ws, hws⟩ := ih ((t.dropWhile space).dropWhile fun c => !space c).length (by
          have h1 := congrArg List.length e1
          have h2 := congrArg List.length e2
          have h3 := List.length_pos_iff.2 hne
          rw [List.length_append] at h1 h2
          omega) rfl
        refine ⟨(t.dropWhile space).takeWhile (fun c => !space c) :: ws, ?_⟩
        have := Words.cons (space := space) (blank := t.takeWhile space) (fun c hc => mem_takeWhile_pos hc) hne
          (fun c hc => by simpa using mem_takeWhile_pos hc) (rest := (t.dropWhile space).dropWhile fun c => !space c) (fun c hc => by
            have := List.head?_dropWhile_not (fun c => !space c) (t.dropWhile space)
            rw [hc] at this
            simpa using this) hws
        rwa [List.append_assoc, e2, e1] at this
  obtain ⟨ws, h⟩ := this
  rw [splitWs_eq h]
  exact h

theorem mem_intercalate {sep : Str} : ∀ {ws : List Str} {c : Char}, c ∈ sep.intercalate ws → c ∈ sep ∨ ∃ w ∈ ws, c ∈ w := by
  intro ws
  induction ws with
  | nil => intro c h; simp [List.intercalate] at h
  | cons w ws ih =>
    intro c h
    cases ws with
    | nil =>
      simp [List.intercalate] at h
      exact Or.inr ⟨w, by simp, h⟩
    | cons v vs =>
      rw [List.intercalate_cons_cons] at h
      simp only [List.mem_append] at h
      rcases h with (h | h) | h
      · exact Or.inr ⟨w, by simp, h⟩
      · exact Or.inl h
      · rcases ih h with h | ⟨x, hx, h⟩
        · exact Or.inl h
        · exact Or.inr ⟨x, List.mem_cons_of_mem _ hx, h⟩

theorem mem_piece {sep : Str} : ∀ {ps : List Str} {p : Str} {c : Char}, p ∈ ps → c ∈ p → c ∈ sep.intercalate ps := by
  intro ps
  induction ps with
  | nil => intro p c h; cases h
  | cons w ws ih =>
    intro p c h hc
    cases ws with
    | nil =>
      rw [List.mem_singleton.1 h] at hc
      simpa [List.intercalate] using hc
    | cons v vs =>
      rw [List.intercalate_cons_cons]
      simp only [List.mem_append]
      rcases List.mem_cons.1 h with rfl | h
      · exact Or.inl (Or.inl hc)
      · exact Or.inr (ih h hc)

theorem blankC_eq : blankC = pySpace8 := by
  funext c
  have h : ∀ n, n < 128 → (c.toNat = n ↔ c = Char.ofNat n) := by
    intro n hn
    constructor
    · intro h; rw [← h, Char.ofNat_toNat]
    · rintro rfl
      unfold Char.toNat Char.ofNat
      rw [dif_pos (Or.inl (by omega))]
      simp [Char.ofNatAux]
  unfold blankC pySpace8
  rw [Bool.eq_iff_iff]
  simp only [List.contains_iff_mem, List.mem_cons, List.not_mem_nil, or_false, Bool.or_eq_true, decide_eq_true_eq, h 9 (by omega), h 10 (by omega), h 11 (by omega), h 12 (by omega),
    h 13 (by omega), h 32 (by omega)]
  have e1 : Char.ofNat 9 = '\t' := rfl
  have e2 : Char.ofNat 10 = '\n' := rfl
  have e3 : Char.ofNat 13 = '\r' := rfl
  have e4 : Char.ofNat 32 = ' ' := rfl
  rw [e1, e2, e3, e4]
  tauto

theorem codegenArgs_eq (call : Str) {raw : Str} {params : List (Str × Str)} (h : DeclaredArgs raw params) (hc : ∀ p ∈ params, Clear p) :
    codegenArgs call raw = .ok (params.map (tableParam call)) := by
  obtain ⟨bare, ws, h1, h2, h3⟩ := h
  rw [blankC_eq] at h2
  have hnorm : normalArgs raw = [' '].intercalate ws := by
    unfold normalArgs
    rw [removeAll_eq h1 _ (by omega), splitWs_eq h2]
  have hsolid := h2.solid
  unfold codegenArgs
  simp only [hnorm]
  rcases h3 with ⟨rfl, rfl⟩ | ⟨hv, items, hp, hf⟩
  · rw [if_pos (by decide)]
    rfl
  · have hvoid : [' '].intercalate ws ≠ "void".toList := by
      intro he
      apply hv
      match ws, he, hsolid with
      | [], he, _ => exact absurd he (by decide)
      | [w], he, _ =>
        simp [List.intercalate] at he
        rw [he]
        rfl
      | w :: v :: vs, he, _ =>
        have : ' ' ∈ "void".toList := by
          rw [← he, List.intercalate_cons_cons]
          simp
        exact absurd this (by decide)
    rw [if_neg hvoid, pieces_iff.1 hp]
    have hchars : ∀ item ∈ items, ∀ c ∈ item, c = ' ' ∨ pySpace8 c = false := by
      intro item hi c hci
      have := mem_piece (sep := [',']) hi hci
      rw [hp.2.2] at this
      rcases mem_intercalate this with h | ⟨w, hw, h⟩
      · exact Or.inl (List.mem_singleton.1 h)
      · exact Or.inr (hsolid w hw c h)
    clear hp hvoid
    induction hf with
    | nil => rfl
    | cons hx _ ih =>
      rename_i item p items ps _
      obtain ⟨pre, text, hpre, rfl, hd⟩ := hx
      rw [List.mapM_cons, codegenArg_eq call hpre hd (fun c h => hchars _ (List.mem_cons_self ..) c (List.mem_append_right _ h)) (hc p (List.mem_cons_self ..)),
        ih (fun q hq => hc q (List.mem_cons_of_mem _ hq)) (fun i hi => hchars i (List.mem_cons_of_mem _ hi))]
      rfl

/-! ### The table -/

theorem codegenTable_eq {ds : List (Str × Str)} {ts : List (Str × List (Str × Str))}
    (h : List.Forall₂ (fun (d : Str × Str) (t : Str × List (Str × Str)) => d.1 = t.1 ∧ DeclaredArgs d.2 t.2) ds ts)
    (hc : ∀ t ∈ ts, ∀ p ∈ t.2, Clear p) : ∀ d : List (Str × List (Str × Str)), (d.map Prod.fst).Nodup →
    ∃ r, codegenTable ds d = .ok r ∧ (r.map Prod.fst).Nodup ∧
      ∀ name v, (name, v) ∈ r ↔ (∃ ps, LastOf ts name ps ∧ v = ps.map (tableParam name)) ∨ ((∀ t ∈ ts, t.1 ≠ name) ∧ (name, v) ∈ d) := by
  induction h with
  | nil =>
    intro d hd
    refine ⟨d, rfl, hd, fun name v => ?_⟩
    constructor
    · intro h; exact Or.inr ⟨(fun t ht => by cases ht), h⟩
    · rintro (⟨ps, ⟨b, a, h, _⟩, _⟩ | ⟨_, h⟩)
      · simp at h
      · exact h
  | cons hx _ ih =>
    rename_i dd t ds ts _
    intro d hd
    obtain ⟨call, raw⟩ := dd
    obtain ⟨call', params⟩ := t
    obtain ⟨h1, h2⟩ := hx
    simp only at h1 h2
    subst h1
    have ha := codegenArgs_eq call h2 (hc _ (List.mem_cons_self ..))
    obtain ⟨r, e1, e2, e3⟩ := ih (fun t ht => hc t (List.mem_cons_of_mem _ ht)) (dictSet d call (params.map (tableParam call))) (dictSet_nodup hd)
    refine ⟨r, by rw [codegenTable, ha]; exact e1, e2, fun name v => ?_⟩
    rw [e3 name v]
    constructor
    · rintro (⟨ps, ⟨b, a, hl, hla⟩, hv⟩ | ⟨hno, hm⟩)
      · exact Or.inl ⟨ps, ⟨(call, params) :: b, a, by rw [hl]; rfl, hla⟩, hv⟩
      · rcases (mem_dictSet _).1 hm with hm | ⟨hm1, hm2⟩
        · injection hm with hm1 hm2
          subst hm1
          exact Or.inl ⟨params, ⟨[], ts, rfl, hno⟩, hm2⟩
        · refine Or.inr ⟨fun t ht => ?_, hm2⟩
          rcases List.mem_cons.1 ht with rfl | ht
          · exact fun h => hm1 h.symm
          · exact hno t ht
    · rintro (⟨ps, ⟨b, a, hl, hla⟩, hv⟩ | ⟨hno, hm⟩)
      · cases b with
        | nil =>
          injection hl with hl1 hl2
          injection hl1 with hl1 hl3
          subst hl1; subst hl2; subst hl3
          exact Or.inr ⟨hla, (mem_dictSet _).2 (Or.inl (by rw [hv]))⟩
        | cons x b =>
          injection hl with _ hl
          exact Or.inl ⟨ps, ⟨b, a, hl, hla⟩, hv⟩
      · exact Or.inr ⟨fun t ht => hno t (List.mem_cons_of_mem _ ht), (mem_dictSet _).2 (Or.inr ⟨fun h => hno _ (List.mem_cons_self ..) h.symm, hm⟩)⟩

/-! ### Order -/

theorem strLt_iff : ∀ (a b : Str), strLt a b = true ↔ Alphabetical a b := by
  intro a
  induction a with
  | nil =>
    intro b
    cases b with
    | nil =>
      constructor
      · intro h; cases h
      · rintro (⟨c, u, h⟩ | ⟨p, x, y, u, v, h, _, _⟩)
        · cases h
        · simp at h
    | cons c b => exact ⟨fun _ => Or.inl ⟨c, b, rfl⟩, fun _ => rfl⟩
  | cons x a ih =>
    intro b
    cases b with
    | nil =>
      constructor
      · intro h; cases h
      · rintro (⟨c, u, h⟩ | ⟨p, x, y, u, v, _, h, _⟩)
        · cases h
        · simp at h
    | cons y b =>
      rw [strLt]
      by_cases h1 : x.toNat < y.toNat
      · rw [if_pos h1]
        exact ⟨fun _ => Or.inr ⟨[], x, y, a, b, rfl, rfl, h1⟩, fun _ => rfl⟩
      · rw [if_neg h1]
        by_cases h2 : y.toNat < x.toNat
        · rw [if_pos h2]
          constructor
          · intro h; cases h
          · rintro (⟨c, u, h⟩ | ⟨p, c, d, u, v, e1, e2, e3⟩)
            · injection h with h _; subst h; omega
            · cases p with
              | nil =>
                injection e1 with e1 _
                injection e2 with e2 _
                subst e1; subst e2; omega
              | cons z p =>
                injection e1 with e1 _
                injection e2 with e2 _
                subst e1; subst e2; omega
        · rw [if_neg h2, ih b]
          have hxy : x = y := Char.ext (UInt32.toNat_inj.1 (by have : x.val.toNat = y.val.toNat := by (show x.toNat = y.toNat); omega
                                                               exact this))
          subst hxy
          constructor
          · rintro (⟨c, u, h⟩ | ⟨p, c, d, u, v, e1, e2, e3⟩)
            · exact Or.inl ⟨c, u, by rw [h]; rfl⟩
            · exact Or.inr ⟨x :: p, c, d, u, v, by rw [e1]; rfl, by rw [e2]; rfl, e3⟩
          · rintro (⟨c, u, h⟩ | ⟨p, c, d, u, v, e1, e2, e3⟩)
            · injection h with _ h; exact Or.inl ⟨c, u, h⟩
            · cases p with
              | nil =>
                injection e1 with e1 _
                injection e2 with e2 _
                subst e1; subst e2; omega
              | cons z p =>
                injection e1 with _ e1
                injection e2 with _ e2
                exact Or.inr ⟨p, c, d, u, v, e1, e2, e3⟩

theorem strLt_trans : ∀ {a b c : Str}, strLt a b = true → strLt b c = true → strLt a c = true := by
  intro a
  induction a with
  | nil =>
    intro b c h1 h2
    cases c with
    | nil => cases b <;> cases h2
    | cons z c => rfl
  | cons x a ih =>
    intro b c h1 h2
    cases b with
    | nil => cases h1
    | cons y b =>
      cases c with
      | nil => cases h2
      | cons z c =>
        rw [strLt] at h1 h2 ⊢
        split_ifs at h1 h2 ⊢ <;> first | rfl | omega | exact ih h1 h2

theorem strLt_total : ∀ {a b : Str}, strLt a b = false → a ≠ b → strLt b a = true := by
  intro a
  induction a with
  | nil =>
    intro b h hne
    cases b with
    | nil => exact absurd rfl hne
    | cons y b => cases h
  | cons x a ih =>
    intro b h hne
    cases b with
    | nil => rfl
    | cons y b =>
      rw [strLt] at h ⊢
      by_cases h1 : x.toNat < y.toNat
      · rw [if_pos h1] at h; cases h
      · rw [if_neg h1] at h
        by_cases h2 : y.toNat < x.toNat
        · rw [if_pos h2]
        · rw [if_neg h2] at h ⊢
          rw [if_neg h1]
          have hxy : x = y := Char.ext (UInt32.toNat_inj.1 (by have : x.val.toNat = y.val.toNat := by (show x.toNat = y.toNat); omega
                                                               exact this))
          subst hxy
          exact ih h fun e => hne (by rw [e])

theorem insertName_perm {β : Type} (x : Str × β) (l : List (Str × β)) : (insertName x l).Perm (x :: l) := by
  induction l with
  | nil => exact List.Perm.refl _
  | cons y l ih =>
    rw [insertName]
    split
    · exact List.Perm.refl _
    · exact (List.Perm.cons y ih).trans (List.Perm.swap x y l)

theorem insertName_sorted {β : Type} (x : Str × β) (l : List (Str × β)) (hs : l.Pairwise fun a b => strLt a.1 b.1 = true) (hx : ∀ e ∈ l, x.1 ≠ e.1) :
    (insertName x l).Pairwise fun a b => strLt a.1 b.1 = true := by
  induction l with
  | nil => exact List.pairwise_singleton _ _
  | cons y l ih =>
    rw [insertName]
    obtain ⟨h1, h2⟩ := List.pairwise_cons.1 hs
    by_cases hlt : strLt x.1 y.1 = true
    · rw [if_pos hlt]
      refine List.pairwise_cons.2 ⟨fun e he => ?_, hs⟩
      rcases List.mem_cons.1 he with rfl | he
      · exact hlt
      · exact strLt_trans hlt (h1 e he)
    · rw [if_neg hlt]
      refine List.pairwise_cons.2 ⟨fun e he => ?_, ih h2 fun e he => hx e (List.mem_cons_of_mem _ he)⟩
      rcases List.mem_cons.1 ((insertName_perm x l).mem_iff.1 he) with rfl | he
      · exact strLt_total (by simpa using hlt) (hx y (List.mem_cons_self ..))
      · exact h1 e he

theorem sortNames_spec {β : Type} (l : List (Str × β)) (hn : (l.map Prod.fst).Nodup) :
    (sortNames l).Perm l ∧ (sortNames l).Pairwise fun a b => Alphabetical a.1 b.1 := by
  have : (sortNames l).Perm l ∧ (sortNames l).Pairwise fun a b => strLt a.1 b.1 = true := by
    unfold sortNames
    induction l with
    | nil => exact ⟨List.Perm.refl _, List.Pairwise.nil⟩
    | cons x l ih =>
      rw [List.map_cons, List.nodup_cons] at hn
      obtain ⟨h1, h2⟩ := ih hn.2
      rw [List.foldr_cons]
      refine ⟨(insertName_perm x _).trans (List.Perm.cons x h1), insertName_sorted x _ h2 fun e he hx => ?_⟩
      exact hn.1 (List.mem_map.2 ⟨e, h1.mem_iff.1 he, hx.symm⟩)
  exact ⟨this.1, this.2.imp fun h => (strLt_iff _ _).1 h⟩

/-! ### C118 -/

/-- **C118 (partial)** For every header: the entries printed are those of the last declarations of each name, in alphabetical order, with the
types and names of the parameters, if no parameter's name ends like a type and types without a name end in `*`, `long`, `int` or `size_t`. -/
theorem C118_partial (source : Str) (ds : List (Str × Str)) (hh : Header source ds) (ts : List (Str × List (Str × Str)))
    (h : List.Forall₂ (fun (d : Str × Str) (t : Str × List (Str × Str)) => d.1 = t.1 ∧ DeclaredArgs d.2 t.2) ds ts)
    (hc : ∀ t ∈ ts, ∀ p ∈ t.2, Clear p) :
    ∃ es : List (Str × List (Str × Str)), codegen source = .ok (es.flatMap entryText) ∧ es.Pairwise (fun a b => Alphabetical a.1 b.1) ∧
      ∀ name v, (name, v) ∈ es ↔ ∃ ps, LastOf ts name ps ∧ v = ps.map (tableParam name) := by
  obtain ⟨r, e1, e2, e3⟩ := codegenTable_eq h hc [] List.nodup_nil
  obtain ⟨hp, hs⟩ := sortNames_spec r e2
  refine ⟨sortNames r, ?_, hs, fun name v => ?_⟩
  · unfold codegen
    rw [findDecls_eq hh _ (by omega), e1]
    rfl
  · rw [hp.mem_iff, e3 name v]
    constructor
    · rintro (h | ⟨_, h⟩)
      · exact h
      · cases h
    · exact Or.inl

/-- A declaration on a line of its own. -/
def protoLine (call args : Str) : Str := "asmlinkage long sys_".toList ++ call ++ '(' :: args ++ ");\n".toList

/-- **C118 (refuted)** A parameter named `hint` is taken for a type; a type such as `umode_t` without a name is taken for a name; and a blank
before a comma, or brackets with nothing between them, stop the generator. -/
theorem C118_refuted :
    codegenArgs "f".toList "unsigned long hint".toList = .ok [("unsigned long hint".toList, [])] ∧
    codegenArgs "f".toList "int, umode_t".toList = .ok [("int".toList, []), ([], "umode_t".toList)] ∧
    codegen (protoLine "f".toList "long a , int b".toList ++ protoLine "g".toList "void".toList) = .error .attribute ∧
    codegen (protoLine "f".toList []) = .error .attribute := by
  decide +kernel

example : DeclaredArgs "unsigned long hint".toList [("unsigned long".toList, "hint".toList)] :=
  ⟨"unsigned long hint".toList, ["unsigned".toList, "long".toList, "hint".toList], .last (by decide +kernel), words_of (by decide +kernel), Or.inr ⟨by decide +kernel, ["unsigned long hint".toList], pieces_iff.2 (by decide +kernel),
    .cons ⟨[], "unsigned long hint".toList, Or.inl rfl, rfl, .plain (ty := "unsigned long".toList) ⟨by decide +kernel, by decide +kernel⟩ (by decide +kernel) ⟨'g', by decide +kernel, by decide +kernel⟩⟩ .nil⟩⟩

example : DeclaredArgs "int, umode_t".toList [("int".toList, []), ("umode_t".toList, [])] :=
  ⟨"int, umode_t".toList, ["int,".toList, "umode_t".toList], .last (by decide +kernel), words_of (by decide +kernel), Or.inr ⟨by decide +kernel, ["int".toList, " umode_t".toList], pieces_iff.2 (by decide +kernel),
    .cons ⟨[], "int".toList, Or.inl rfl, rfl, .unnamed (by decide +kernel) ⟨'t', by decide +kernel, by decide +kernel⟩⟩
      (.cons ⟨[' '], "umode_t".toList, Or.inr rfl, rfl, .unnamed (by decide +kernel) ⟨'t', by decide +kernel, by decide +kernel⟩⟩ .nil)⟩⟩

/-- A header with a comment, three declarations and a variable. -/
def sampleHeader : Str := "/* x */".toList ++ '\n' :: (protoLine "read".toList "unsigned int fd, char __user *buf,\n\t\tsize_t count".toList ++
  ("int x;".toList ++ '\n' :: (protoLine "pipe".toList "int __user *fildes".toList ++ "asmlinkage long sys32_fork(void);\n".toList)))

theorem header_proto {call args rest : Str} {ds : List (Str × Str)} (h1 : '(' ∉ call) (h2 : ')' ∉ args) (h : Header rest ds) :
    Header (protoLine call args ++ rest) ((call, args) :: ds) := by
  have := Header.decl (pre := "_".toList) (tail := ";".toList) (Or.inl rfl) h1 h2 (by decide) h
  unfold protoLine
  simpa using this

theorem sampleHeader_header : Header sampleHeader [("read".toList, "unsigned int fd, char __user *buf,\n\t\tsize_t count".toList), ("pipe".toList, "int __user *fildes".toList), ("fork".toList, "void".toList)] := by
  refine .other (by decide +kernel) (by decide +kernel) (header_proto (by decide +kernel) (by decide +kernel)
    (.other (by decide +kernel) (by decide +kernel) (header_proto (by decide +kernel) (by decide +kernel) ?_)))
  have := Header.decl (pre := "32_".toList) (name := "fork".toList) (args := "void".toList) (tail := ";".toList) (Or.inr rfl) (by decide) (by decide) (by decide) .nil
  have e : "asmlinkage long sys".toList ++ ("32_".toList ++ ("fork".toList ++ '(' :: ("void".toList ++ ')' :: (";".toList ++ '\n' :: [])))) = "asmlinkage long sys32_fork(void);\n".toList := by
    decide +kernel
  rwa [e] at this

theorem sampleRead : DeclaredArgs ("unsigned int fd, char ".toList ++ "__user".toList ++ " *buf,\n\t\tsize_t count".toList)
    [("unsigned int".toList, "fd".toList), ("char *".toList, "buf".toList), ("size_t".toList, "count".toList)] :=
  ⟨_, ["unsigned".toList, "int".toList, "fd,".toList, "char".toList, "*buf,".toList, "size_t".toList, "count".toList], .mark (by decide +kernel) (.last (by decide +kernel)), words_of (by decide +kernel),
   Or.inr ⟨by decide +kernel, ["unsigned int fd".toList, " char *buf".toList, " size_t count".toList], pieces_iff.2 (by decide +kernel),
    .cons ⟨[], "unsigned int fd".toList, Or.inl rfl, rfl, .plain (ty := "unsigned int".toList) ⟨by decide +kernel, by decide +kernel⟩ (by decide +kernel) ⟨'t', by decide +kernel, by decide +kernel⟩⟩
      (.cons ⟨[' '], "char *buf".toList, Or.inr rfl, rfl, .pointer (ty := "char *".toList) ⟨by decide +kernel, by decide +kernel⟩ (by decide +kernel) (by decide +kernel)⟩
        (.cons ⟨[' '], "size_t count".toList, Or.inr rfl, rfl, .plain (ty := "size_t".toList) ⟨by decide +kernel, by decide +kernel⟩ (by decide +kernel) ⟨'t', by decide +kernel, by decide +kernel⟩⟩ .nil))⟩⟩

example : ∀ p ∈ [("unsigned int".toList, "fd".toList), ("char *".toList, "buf".toList), ("size_t".toList, "count".toList), ("int *".toList, "fildes".toList), ("umode_t *".toList, [])], Clear p := by
  unfold Clear
  decide +kernel

/-- The theorem applied to it. -/
example := C118_partial sampleHeader _ sampleHeader_header
  [("read".toList, [("unsigned int".toList, "fd".toList), ("char *".toList, "buf".toList), ("size_t".toList, "count".toList)]),
   ("pipe".toList, [("int *".toList, "fildes".toList)]), ("fork".toList, [])]
  (.cons ⟨rfl, sampleRead⟩ (.cons ⟨rfl, _, ["int".toList, "*fildes".toList], .mark (t := "int ".toList) (rest := " *fildes".toList) (by decide +kernel) (.last (by decide +kernel)),
      words_of (by decide +kernel), Or.inr ⟨by decide +kernel, ["int *fildes".toList], pieces_iff.2 (by decide +kernel),
        .cons ⟨[], "int *fildes".toList, Or.inl rfl, rfl, .pointer (ty := "int *".toList) ⟨by decide +kernel, by decide +kernel⟩ (by decide +kernel) (by decide +kernel)⟩ .nil⟩⟩
    (.cons ⟨rfl, "void".toList, ["void".toList], .last (by decide +kernel), words_of (by decide +kernel), Or.inl ⟨rfl, rfl⟩⟩ .nil)))
  (by unfold Clear; decide +kernel)

example : codegen sampleHeader = .ok (entryText ("fork".toList, []) ++ entryText ("pipe".toList, [("int[2]".toList, "fildes".toList)]) ++
    entryText ("read".toList, [("unsigned int".toList, "fd".toList), ("char *".toList, "buf".toList), ("size_t".toList, "count".toList)])) := by
  decide +kernel

end PT
