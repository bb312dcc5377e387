import Verif.Model.CmdLine
import Verif.Spec.CmdLine
import Verif.Lemmas.Dict

/-! C139: the command lines of strace.py and gdb.py. -/

namespace PT
open Spec

/-- The kind of a switch in the tables of the code. -/
def switchKind : CmdTakes → OptKind
  | .nothing => .flag
  | .number => .int
  | .text => .str
  | .help => .help

/-- The entry for a switch. -/
def defOf (s : Switch) : OptDef := ⟨'-' :: '-' :: s.name, s.letter, switchKind s.takes⟩

/-- The attribute for a name. -/
def destOf (name : Str) : Str := name.map fun c => if c = '-' then '_' else c

def valOf : Setting → OptVal
  | .on => .flag true
  | .number n => .int n
  | .text s => .str s

theorem defOf_dest (s : Switch) : (defOf s).dest = destOf s.name := rfl

/-- The table and the manual agree, and the manual is not ambiguous. -/
structure Agrees (opts : List OptDef) (man : List Switch) : Prop where
  here : ∀ s ∈ man, defOf s ∈ opts
  there : ∀ o ∈ opts, ∃ s ∈ man, o = defOf s
  nodup : opts.Nodup
  names : ∀ s ∈ man, ∀ s' ∈ man, destOf s.name = destOf s'.name → s = s'
  letters : ∀ s ∈ man, ∀ s' ∈ man, ∀ c, s.letter = some c → s'.letter = some c → s = s'
  noEq : ∀ s ∈ man, '=' ∉ s.name
  named : ∀ s ∈ man, s.name ≠ []
  noDash : ∀ s ∈ man, s.letter ≠ some '-'
  two : matchAbbrev opts ['-', '-'] = none

def agreesCheck (opts : List OptDef) (man : List Switch) : Bool :=
  man.all (fun s => opts.contains (defOf s)) && opts.all (fun o => man.any fun s => o == defOf s) && decide opts.Nodup &&
  man.all (fun s => man.all fun s' => (destOf s.name != destOf s'.name || s == s') && (s.letter == none || s.letter != s'.letter || s == s')) &&
  man.all (fun s => !s.name.contains '=' && !s.name.isEmpty && s.letter != some '-') && matchAbbrev opts ['-', '-'] == none

theorem agrees_of_check {opts : List OptDef} {man : List Switch} (h : agreesCheck opts man = true) : Agrees opts man := by
  unfold agreesCheck at h
  simp only [Bool.and_eq_true, List.all_eq_true, List.any_eq_true, List.contains_iff_mem, beq_iff_eq, Bool.or_eq_true, bne_iff_ne,
    decide_eq_true_eq, Bool.not_eq_true'] at h
  obtain ⟨⟨⟨⟨⟨h1, h2⟩, h3⟩, h4⟩, h5⟩, h6⟩ := h
  refine ⟨h1, h2, h3, fun s hs s' hs' he => ?_, fun s hs s' hs' c hc hc' => ?_, fun s hs he => ?_, fun s hs => ?_, fun s hs => (h5 s hs).2, h6⟩
  · rcases (h4 s hs s' hs').1 with h | h
    · exact absurd he h
    · exact h
  · rcases (h4 s hs s' hs').2 with (h | h) | h
    · rw [h] at hc; cases hc
    · rw [hc, hc'] at h; exact absurd rfl h
    · exact h
  · have := (h5 s hs).1.1
    rw [List.contains_iff_mem.2 he] at this
    cases this
  · have := (h5 s hs).1.2
    rintro he
    rw [he] at this
    cases this

theorem strace_agrees : Agrees straceOptions straceManual := agrees_of_check (by decide +kernel)
theorem gdb_agrees : Agrees gdbOptions gdbManual := agrees_of_check (by decide +kernel)

section
variable {opts : List OptDef} {man : List Switch} {space : Char → Bool} {num : Int → Str → Prop}

theorem filter_one {α : Type} {p : α → Bool} {x : α} : ∀ {l : List α}, l.Nodup → x ∈ l → p x = true → (∀ y ∈ l, p y = true → y = x) → l.filter p = [x]
  | [], _, h, _, _ => by cases h
  | y :: l, hn, hx, hp, hu => by
    rw [List.nodup_cons] at hn
    rcases List.mem_cons.1 hx with rfl | hx
    · rw [List.filter_cons_of_pos hp]
      congr 1
      refine List.filter_eq_nil_iff.2 fun z hz hpz => ?_
      have := hu z (List.mem_cons_of_mem _ hz) hpz
      subst this
      exact hn.1 hz
    · have hy : ¬p y = true := fun hpy => by
        have := hu y List.mem_cons_self hpy
        subst this
        exact hn.1 hx
      rw [List.filter_cons_of_neg hy]
      exact filter_one hn.2 hx hp fun z hz => hu z (List.mem_cons_of_mem _ hz)

theorem Agrees.long (A : Agrees opts man) {s : Switch} (hs : s ∈ man) {o : OptDef} (ho : o ∈ opts) (h : o.long = '-' :: '-' :: s.name) : o = defOf s := by
  obtain ⟨s', hs', rfl⟩ := A.there o ho
  have : s'.name = s.name := by simpa [defOf] using h
  rw [A.names s' hs' s hs (by rw [this])]

theorem matchAbbrev_means (A : Agrees opts man) {w : Str} {s : Switch} (h : Means man w s) : matchAbbrev opts ('-' :: '-' :: w) = some (defOf s) := by
  obtain ⟨hs, h⟩ := h
  unfold matchAbbrev
  cases hf : opts.find? fun o => o.long = '-' :: '-' :: w with
  | some o =>
    have h1 := List.find?_some hf
    rw [decide_eq_true_eq] at h1
    have h2 := List.mem_of_find?_eq_some hf
    rcases h with rfl | ⟨-, -, hu⟩
    · rw [A.long hs h2 h1]
    · obtain ⟨s', hs', rfl⟩ := A.there o h2
      have h3 : s'.name = w := by simpa [defOf] using h1
      rw [hu s' hs' (by rw [h3]; exact List.prefix_refl w)]
  | none =>
    have h1 := List.find?_eq_none.1 hf
    rcases h with rfl | ⟨-, hp, hu⟩
    · exact absurd (by simp [defOf]) (h1 _ (A.here s hs))
    · have h2 : (opts.filter fun o => ('-' :: '-' :: w).isPrefixOf o.long) = [defOf s] := by
        refine filter_one A.nodup (A.here s hs) ?_ fun o ho hpo => ?_
        · rw [List.isPrefixOf_iff_prefix]
          exact List.cons_prefix_cons.2 ⟨rfl, List.cons_prefix_cons.2 ⟨rfl, hp⟩⟩
        · obtain ⟨s', hs', rfl⟩ := A.there o ho
          rw [List.isPrefixOf_iff_prefix] at hpo
          have h3 : w <+: s'.name := (List.cons_prefix_cons.1 (List.cons_prefix_cons.1 hpo).2).2
          rw [hu s' hs' h3]
      dsimp only
      rw [h2]

theorem matchAbbrev_sound (A : Agrees opts man) {w : Str} {o : OptDef} (hw : w ≠ []) (h : matchAbbrev opts ('-' :: '-' :: w) = some o) :
    ∃ s, Means man w s ∧ o = defOf s := by
  unfold matchAbbrev at h
  cases hf : opts.find? fun o => o.long = '-' :: '-' :: w with
  | some o' =>
    rw [hf] at h
    cases h
    have h1 := List.find?_some hf
    rw [decide_eq_true_eq] at h1
    obtain ⟨s, hs, rfl⟩ := A.there _ (List.mem_of_find?_eq_some hf)
    exact ⟨s, ⟨hs, Or.inl (by simpa [defOf] using h1.symm)⟩, rfl⟩
  | none =>
    rw [hf] at h
    dsimp only at h
    split at h
    · rename_i o' hfil
      cases h
      have hmem : o ∈ opts.filter fun o => ('-' :: '-' :: w).isPrefixOf o.long := by rw [hfil]; simp
      obtain ⟨ho, hp⟩ := List.mem_filter.1 hmem
      obtain ⟨s, hs, rfl⟩ := A.there _ ho
      rw [List.isPrefixOf_iff_prefix] at hp
      refine ⟨s, ⟨hs, Or.inr ⟨hw, (List.cons_prefix_cons.1 (List.cons_prefix_cons.1 hp).2).2, fun s' hs' hp' => ?_⟩⟩, rfl⟩
      have : defOf s' ∈ opts.filter fun o => ('-' :: '-' :: w).isPrefixOf o.long := List.mem_filter.2 ⟨A.here s' hs', by
        rw [List.isPrefixOf_iff_prefix]
        exact List.cons_prefix_cons.2 ⟨rfl, List.cons_prefix_cons.2 ⟨rfl, hp'⟩⟩⟩
      rw [hfil, List.mem_singleton] at this
      refine A.names s' hs' s hs ?_
      rw [← defOf_dest, ← defOf_dest, this]
    · cases h

theorem means_clean (A : Agrees opts man) {w : Str} {s : Switch} (h : Means man w s) : w ≠ [] ∧ '=' ∉ w := by
  obtain ⟨hs, rfl | ⟨h1, h2, -⟩⟩ := h
  · exact ⟨A.named s hs, A.noEq s hs⟩
  · exact ⟨h1, fun h => A.noEq s hs (h2.subset h)⟩

theorem takeWhile_eq {w v : Str} (h : '=' ∉ w) : (w ++ '=' :: v).takeWhile (· ≠ '=') = w ∧ (w ++ '=' :: v).dropWhile (· ≠ '=') = '=' :: v ∧
    w.takeWhile (· ≠ '=') = w := by
  induction w with
  | nil => simp
  | cons c w ih =>
    rw [List.mem_cons, not_or] at h
    obtain ⟨h1, h2, h3⟩ := ih h.2
    have hc : decide (c ≠ '=') = true := decide_eq_true (Ne.symm h.1)
    simp only [List.cons_append, List.takeWhile_cons, List.dropWhile_cons, hc, if_true, h1, h2, h3, and_self]

theorem find_letter (A : Agrees opts man) {c : Char} {s : Switch} (h : Letter man c s) : opts.find? (fun o => o.short = some c) = some (defOf s) := by
  cases hf : opts.find? fun o => o.short = some c with
  | none => exact absurd (decide_eq_true h.2) (List.find?_eq_none.1 hf _ (A.here s h.1))
  | some o =>
    have h1 := List.find?_some hf
    rw [decide_eq_true_eq] at h1
    obtain ⟨s', hs', rfl⟩ := A.there _ (List.mem_of_find?_eq_some hf)
    rw [A.letters s' hs' s h.1 c h1 h.2]

/-! ## numbers -/

theorem digits_value (n : Nat) : ∀ acc t, digitsVal 10 true acc (Nat.toDigits 10 n ++ t) = digitsVal 10 false (acc * 10 ^ (Nat.toDigits 10 n).length + n) t ∧
    digitsVal 10 false acc (Nat.toDigits 10 n ++ t) = digitsVal 10 false (acc * 10 ^ (Nat.toDigits 10 n).length + n) t := by
  have hd : ∀ d, d < 10 → Nat.digitChar d ≠ '_' ∧ digitVal (Nat.digitChar d) = some d := by decide
  have one : ∀ d gap acc t, d < 10 → digitsVal 10 gap acc (Nat.digitChar d :: t) = digitsVal 10 false (acc * 10 + d) t := by
    intro d gap acc t h
    rw [digitsVal, if_neg (hd d h).1, (hd d h).2]
    dsimp only
    rw [if_pos h]
  induction n using Nat.strongRecOn with
  | _ n ih =>
    intro acc t
    by_cases h : n < 10
    · rw [Nat.toDigits_of_lt_base h]
      simp only [List.singleton_append, one n _ acc t h, List.length_singleton, Nat.pow_one, and_self]
    · rw [Nat.toDigits_of_base_le (b := 10) (n := n) (by omega) (by omega), List.append_assoc, List.length_append, List.length_singleton]
      have := ih (n / 10) (by omega) acc ([Nat.digitChar (n % 10)] ++ t)
      rw [this.1, this.2]
      simp only [List.singleton_append, one _ _ _ t (Nat.mod_lt n (by omega)), and_self]
      congr 1
      rw [Nat.pow_succ, Nat.add_mul, Nat.mul_assoc]
      omega

theorem toString_digits (n : Nat) : (toString n).toList = Nat.toDigits 10 n := by rw [Nat.toString_eq_repr, Nat.toList_repr]

/-- Digits and the minus sign are no spaces. -/
def Tidy (space : Char → Bool) : Prop := ∀ c ∈ "-0123456789".toList, space c = false

theorem strip_none {t : Str} (h : ∀ c ∈ t, space c = false) : strip space t = t := by
  have key : ∀ l : Str, (∀ c ∈ l, space c = false) → l.dropWhile space = l := by
    intro l hl
    cases l with
    | nil => rfl
    | cons c l => rw [List.dropWhile_cons, hl c List.mem_cons_self]; rfl
  unfold strip
  rw [key t h, key t.reverse fun c hc => h c (List.mem_reverse.1 hc), List.reverse_reverse]

theorem toDigits_char (n : Nat) : (∀ c ∈ Nat.toDigits 10 n, c ∈ "0123456789".toList) ∧ Nat.toDigits 10 n ≠ [] ∧
    (n ≠ 0 → ∀ t, Nat.toDigits 10 n ≠ '0' :: t) := by
  have hd : ∀ d, d < 10 → Nat.digitChar d ∈ "0123456789".toList ∧ (d ≠ 0 → Nat.digitChar d ≠ '0') := by decide
  induction n using Nat.strongRecOn with
  | _ n ih =>
    by_cases h : n < 10
    · rw [Nat.toDigits_of_lt_base h]
      refine ⟨fun c hc => ?_, by simp, fun hn t ht => ?_⟩
      · rw [List.mem_singleton.1 hc]
        exact (hd n h).1
      · exact (hd n h).2 hn (List.cons.inj ht).1
    · rw [Nat.toDigits_of_base_le (b := 10) (n := n) (by omega) (by omega)]
      obtain ⟨h1, h2, h3⟩ := ih (n / 10) (by omega)
      refine ⟨fun c hc => ?_, by simp, fun _ t ht => ?_⟩
      · rcases List.mem_append.1 hc with hc | hc
        · exact h1 c hc
        · rw [List.mem_singleton.1 hc]
          exact (hd _ (Nat.mod_lt n (by omega))).1
      · cases hl : Nat.toDigits 10 (n / 10) with
        | nil => exact h2 hl
        | cons c l =>
          rw [hl] at ht
          have := (List.cons.inj ht).1
          exact h3 (by omega) l (by rw [hl, this])

theorem afterPrefix_ten (s : Str) : afterPrefix 10 s = s := by
  unfold afterPrefix
  dsimp only
  split
  · simp
  · rfl

/-- A decimal number is read as it is meant. -/
theorem parseNum_decimal (hs : Tidy space) (n : Int) : parseNum space (decimalText n) = some n := by
  have hdig : ∀ c ∈ "0123456789".toList, space c = false := fun c hc => hs c (by
    have : ∀ c ∈ "0123456789".toList, c ∈ "-0123456789".toList := by decide
    exact this c hc)
  have hval : ∀ m, digitsVal 10 true 0 (Nat.toDigits 10 m) = some m := by
    intro m
    have := (digits_value m 0 []).1
    rw [List.append_nil, Nat.zero_mul, Nat.zero_add] at this
    rw [this]
    rfl
  cases n with
  | ofNat m =>
    rw [show decimalText (Int.ofNat m) = Nat.toDigits 10 m from toString_digits m]
    obtain ⟨h1, h2, h3⟩ := toDigits_char m
    by_cases hm : m = 0
    · subst hm
      have : strip space ['0'] = ['0'] := strip_none fun c hc => by rw [List.mem_singleton.1 hc]; exact hdig '0' (by decide)
      show parseNum space ['0'] = _
      unfold parseNum intOf
      simp [this, afterPrefix, digitsVal, digitVal]
    · have h3 := h3 hm
      cases hl : Nat.toDigits 10 m with
      | nil => exact absurd hl h2
      | cons c l =>
        have hc : c ≠ '0' := fun h => h3 l (by rw [hl, h])
        have hmem : c ∈ "0123456789".toList := h1 c (by rw [hl]; simp)
        have hsgn : c ≠ '-' ∧ c ≠ '+' := by
          constructor
          · rintro rfl; revert hmem; decide
          · rintro rfl; revert hmem; decide
        unfold parseNum
        have t1 : ∀ x y : Char, y = '0' → (c :: l).take 2 ≠ [y, x] := by
          rintro x y rfl h
          cases l <;> simp at h
          exact hc h.1
        rw [if_neg (by rintro (h | h) <;> exact t1 _ _ rfl h), if_neg (by rintro (h | h) <;> exact t1 _ _ rfl h), if_neg (by simp [hc])]
        unfold intOf
        rw [strip_none (fun c hc => hdig c (h1 c (by rw [hl]; exact hc)))]
        have := hval m
        rw [hl] at this
        split
        · rename_i h; exact absurd (List.cons.inj h).1 hsgn.1
        · rename_i h; exact absurd (List.cons.inj h).1 hsgn.2
        · rw [afterPrefix_ten, this]
          rfl
  | negSucc m =>
    rw [show decimalText (Int.negSucc m) = '-' :: Nat.toDigits 10 (m + 1) by rw [← toString_digits]; rfl]
    obtain ⟨h1, h2, h3⟩ := toDigits_char (m + 1)
    unfold parseNum
    have t1 : ∀ x : Char, ('-' :: Nat.toDigits 10 (m + 1)).take 2 ≠ ['0', x] := by
      intro x h
      simp at h
    rw [if_neg (by rintro (h | h) <;> exact t1 _ h), if_neg (by rintro (h | h) <;> exact t1 _ h), if_neg (by simp)]
    unfold intOf
    rw [strip_none (fun c hc => by
      rcases List.mem_cons.1 hc with rfl | hc
      · exact hs '-' (by decide)
      · exact hdig c (h1 c hc))]
    simp only [afterPrefix_ten, hval]
    rfl


/-- Numbers are read as they are meant. -/
def Reads (space : Char → Bool) (num : Int → Str → Prop) : Prop := ∀ n t, num n t → parseNum space t = some n

theorem reads_decimal (hs : Tidy space) : Reads space Decimal := fun n t h => by
  rw [show t = decimalText n from h]
  exact parseNum_decimal hs n

/-! ## words -/

/-- What is set after these settings. -/
def applied (is : List (Str × Setting)) (v : OptVals) : OptVals := is.foldl (fun v i => dictSet v (destOf i.1) (valOf i.2)) v

theorem applied_append (is js : List (Str × Setting)) (v : OptVals) : applied (is ++ js) v = applied js (applied is v) := List.foldl_append

theorem storeValue_writes (N : Reads space num) {s : Switch} {x : Setting} {t : Str} (h : Writes num s.takes x t) (v : OptVals) :
    storeValue space (defOf s) t v = some (dictSet v (destOf s.name) (valOf x)) := by
  obtain ⟨name, letter, takes⟩ := s
  dsimp only at h
  cases h with
  | text => rfl
  | @number n t h =>
    show ((parseNum space t).map _) = _
    rw [N n t h]
    rfl

theorem takes_value {s : Switch} {x : Setting} {t : Str} (h : Writes num s.takes x t) : s.takes = .number ∨ s.takes = .text := by
  obtain ⟨name, letter, takes⟩ := s
  dsimp only at h
  cases h with
  | text => exact Or.inr rfl
  | number h => exact Or.inl rfl

theorem takeWhile_dash (w : Str) : ('-' :: '-' :: w).takeWhile (· ≠ '=') = '-' :: '-' :: w.takeWhile (· ≠ '=') := rfl
theorem dropWhile_dash (w : Str) : ('-' :: '-' :: w).dropWhile (· ≠ '=') = w.dropWhile (· ≠ '=') := rfl

theorem longOpt_plain (A : Agrees opts man) {w : Str} {s : Switch} (h : Means man w s) (v : OptVals) :
    longOpt space opts ('-' :: '-' :: w) v = match s.takes with
      | .nothing => .set (dictSet v (destOf s.name) (.flag true))
      | .help => .help
      | _ => .want (defOf s) v := by
  have hc := means_clean A h
  have hg : ('-' :: '-' :: w).contains '=' = false := by
    rw [Bool.eq_false_iff]
    intro hm
    have := List.contains_iff_mem.1 hm
    simp at this
    exact hc.2 this
  unfold longOpt
  rw [takeWhile_dash, (takeWhile_eq (v := []) hc.2).2.2, matchAbbrev_means A h]
  dsimp only
  rw [hg]
  cases ht : s.takes <;> simp only [defOf, switchKind, ht] <;> rfl

theorem longOpt_with (A : Agrees opts man) (N : Reads space num) {w t : Str} {s : Switch} {x : Setting} (h : Means man w s) (hw : Writes num s.takes x t) (v : OptVals) :
    longOpt space opts ('-' :: '-' :: (w ++ '=' :: t)) v = .set (dictSet v (destOf s.name) (valOf x)) := by
  have hc := means_clean A h
  have hg : ('-' :: '-' :: (w ++ '=' :: t)).contains '=' = true := List.contains_iff_mem.2 (by simp)
  unfold longOpt
  rw [takeWhile_dash, dropWhile_dash, (takeWhile_eq hc.2).1, (takeWhile_eq hc.2).2.1, matchAbbrev_means A h]
  dsimp only
  rw [hg, List.drop_one, List.tail_cons, storeValue_writes N hw]
  rcases takes_value hw with ht | ht <;> simp only [defOf, switchKind, ht] <;> rfl

theorem shortOpts_letters (A : Agrees opts man) {js : List (Str × Setting)} {cs : Str} (h : Letters man js cs) (t : Str) : ∀ v,
    shortOpts space opts (cs ++ t) v = shortOpts space opts t (applied js v) := by
  induction h with
  | nil => intro v; rfl
  | @cons c s is cs hl ht hs ih =>
    intro v
    rw [List.cons_append, shortOpts, find_letter A hl]
    simp only [defOf, switchKind, ht]
    rw [ih]
    rfl

theorem shortOpts_value (A : Agrees opts man) (N : Reads space num) {c : Char} {s : Switch} {x : Setting} {t : Str} (h : Letter man c s) (hw : Writes num s.takes x t)
    (v : OptVals) : shortOpts space opts [c] v = .want (defOf s) v ∧
    (t ≠ [] → shortOpts space opts (c :: t) v = .set (dictSet v (destOf s.name) (valOf x))) := by
  refine ⟨?_, fun hne => ?_⟩
  · rw [shortOpts, find_letter A h]
    rcases takes_value hw with ht | ht <;> simp only [defOf, switchKind, ht] <;> rfl
  · rw [shortOpts, find_letter A h]
    have := storeValue_writes N hw v
    dsimp only
    rw [this]
    rcases takes_value hw with ht | ht <;> simp only [defOf, switchKind, ht, if_neg hne]

theorem process_long (v : OptVals) (l rest : List Str) {w : Str} (hw : w ≠ []) : processArgs space opts none v l (('-' :: '-' :: w) :: rest) =
    match longOpt space opts ('-' :: '-' :: w) v with
      | .set v => processArgs space opts none v l rest
      | .want o v => processArgs space opts (some o) v l rest
      | .help => .exit 0
      | .bad => .exit 2 := by
  rw [processArgs, if_neg (by simp [hw]), if_pos (by rfl)]
  rfl

theorem process_short (v : OptVals) (l rest : List Str) {w : Str} (hw : w ≠ []) (hd : ∀ t, w ≠ '-' :: t) : processArgs space opts none v l (('-' :: w) :: rest) =
    match shortOpts space opts w v with
      | .set v => processArgs space opts none v l rest
      | .want o v => processArgs space opts (some o) v l rest
      | .help => .exit 0
      | .bad => .exit 2 := by
  cases w with
  | nil => exact absurd rfl hw
  | cons c t =>
    have hc : c ≠ '-' := fun h => hd t (by rw [h])
    rw [processArgs, if_neg (by simp [hc]), if_neg (by simp [hc]), if_pos (by simp)]
    rfl

theorem letters_noDash (A : Agrees opts man) {js : List (Str × Setting)} {cs : Str} (h : Letters man js cs) (t : Str) : cs ≠ '-' :: t := by
  cases h with
  | nil => simp
  | cons hl _ _ =>
    intro he
    rw [(List.cons.inj he).1] at hl
    exact A.noDash _ hl.1 hl.2

theorem letters_noDash' (A : Agrees opts man) {js : List (Str × Setting)} {cs : Str} (h : Letters man js cs) {c : Char} {s : Switch} (hc : Letter man c s)
    (u t : Str) : cs ++ c :: u ≠ '-' :: t := by
  cases h with
  | nil =>
    intro he
    rw [List.nil_append] at he
    rw [(List.cons.inj he).1] at hc
    exact A.noDash _ hc.1 hc.2
  | cons hl _ _ =>
    intro he
    rw [List.cons_append] at he
    rw [(List.cons.inj he).1] at hl
    exact A.noDash _ hl.1 hl.2

theorem process_want (N : Reads space num) {s : Switch} {x : Setting} {t : Str} (hw : Writes num s.takes x t) (v : OptVals) (l rest : List Str) :
    processArgs space opts (some (defOf s)) v l (t :: rest) = processArgs space opts none (dictSet v (destOf s.name) (valOf x)) l rest := by
  rw [processArgs, storeValue_writes N hw]

/-- The words of switches are taken one by one. -/
theorem process_words (A : Agrees opts man) (N : Reads space num) {is : List (Str × Setting)} {ws : List Str} (h : CmdWords num man is ws) (l rest : List Str) : ∀ v,
    processArgs space opts none v l (ws ++ rest) = processArgs space opts none (applied is v) l rest := by
  induction h with
  | nil => intro v; rfl
  | name h ht hs ih =>
    intro v
    rw [List.cons_append, process_long v l _ (means_clean A h).1, longOpt_plain A h, ht]
    dsimp only
    rw [ih]
    rfl
  | nameThen h hv hs ih =>
    intro v
    rw [List.cons_append, List.cons_append, process_long v l _ (means_clean A h).1, longOpt_plain A h]
    rcases takes_value hv with ht | ht <;> rw [ht] <;> dsimp only <;> rw [process_want N hv, ih] <;> rfl
  | nameWith h hv hs ih =>
    intro v
    rw [List.cons_append, process_long v l _ (by simp), longOpt_with A N h hv]
    dsimp only
    rw [ih]
    rfl
  | @letters js cs is ws h hc hs ih =>
    intro v
    rw [List.cons_append, process_short v l _ hc (letters_noDash A h), ← List.append_nil cs, shortOpts_letters A h, shortOpts]
    dsimp only
    rw [ih, applied_append]
  | @lettersThen js cs t c s x is ws h hc hv hs ih =>
    intro v
    rw [List.cons_append, List.cons_append, process_short v l _ (by simp) (letters_noDash' A h hc []), shortOpts_letters A h, (shortOpts_value A N hc hv _).1]
    dsimp only
    rw [process_want N hv, ih, applied_append]
    rfl
  | @lettersWith js cs t c s x is ws h hc hv hne hs ih =>
    intro v
    rw [List.cons_append, process_short v l _ (by simp) (letters_noDash' A h hc t), shortOpts_letters A h, (shortOpts_value A N hc hv _).2 hne]
    dsimp only
    rw [ih, applied_append]
    rfl


theorem process_plain {w : Str} (hw : ¬Dashed w) (v : OptVals) (l rest : List Str) :
    processArgs space opts none v l (w :: rest) = processArgs space opts none v (l ++ [w]) rest := by
  have h1 : ¬(w.take 1 = ['-'] ∧ 1 < w.length) := by
    rintro ⟨h1, h2⟩
    match w, h1, h2 with
    | c :: d :: t, h1, _ =>
      have : c = '-' := by simpa using h1
      exact hw ⟨d, t, by rw [this]⟩
  rw [processArgs, if_neg (by rintro rfl; exact h1 (by simp)), if_neg (by
    intro h
    match w, h, h1 with
    | c :: d :: t, h, h1 => simp at h; exact h1 (by simp [h.1])), if_neg h1]

/-- A command line is read as the help tells. -/
theorem process_line (A : Agrees opts man) (N : Reads space num) {is : List (Str × Setting)} {prog args : List Str} (h : CmdLine num man is prog args) : ∀ v l,
    processArgs space opts none v l args = .ok (applied is v) (l ++ prog) := by
  induction h with
  | nil => intro v l; rw [List.append_nil]; rfl
  | rest prog => intro v l; rfl
  | words hw h ih =>
    intro v l
    rw [process_words A N hw, ih, applied_append]
  | plain hw h ih =>
    intro v l
    rw [process_plain hw, ih, List.append_assoc]
    rfl

/-! ## the way back -/

theorem takes_of_kind {s : Switch} (h1 : s.takes ≠ .help) (h2 : s.takes ≠ .nothing) : s.takes = .number ∨ s.takes = .text := by
  cases h : s.takes
  · exact absurd h h2
  · exact Or.inl rfl
  · exact Or.inr rfl
  · exact absurd h h1

/-- The numbers the programs read. -/
def Read (space : Char → Bool) (n : Int) (t : Str) : Prop := parseNum space t = some n

theorem storeValue_back {s : Switch} (hs : s.takes = .number ∨ s.takes = .text) {t : Str} {v v' : OptVals} (h : storeValue space (defOf s) t v = some v') :
    ∃ x, Writes (Read space) s.takes x t ∧ v' = dictSet v (destOf s.name) (valOf x) := by
  rcases hs with hs | hs
  · simp only [storeValue, defOf, switchKind, hs, Option.map_eq_some_iff] at h
    obtain ⟨n, hn, rfl⟩ := h
    exact ⟨.number n, hs ▸ .number hn, rfl⟩
  · simp only [storeValue, defOf, switchKind, hs, Option.some.injEq] at h
    exact ⟨.text t, hs ▸ .text t, h.symm⟩

theorem splitEq (u : Str) : (u.contains '=' = false ∧ u.takeWhile (· ≠ '=') = u) ∨
    (∃ t, u = u.takeWhile (· ≠ '=') ++ '=' :: t ∧ u.dropWhile (· ≠ '=') = '=' :: t) := by
  induction u with
  | nil => exact Or.inl ⟨rfl, rfl⟩
  | cons c u ih =>
    by_cases hc : c = '='
    · subst hc
      exact Or.inr ⟨u, by simp, by simp⟩
    · have hd : decide (c ≠ '=') = true := decide_eq_true hc
      rcases ih with ⟨h1, h2⟩ | ⟨t, h1, h2⟩
      · refine Or.inl ⟨?_, ?_⟩
        · rw [List.contains_cons, h1, Bool.or_false]
          exact beq_false_of_ne (Ne.symm hc)
        · rw [List.takeWhile_cons, hd, if_pos rfl, h2]
      · refine Or.inr ⟨t, ?_, ?_⟩
        · rw [List.takeWhile_cons, hd, if_pos rfl, List.cons_append, ← h1]
        · rw [List.dropWhile_cons, hd, if_pos rfl, h2]

theorem longOpt_back (A : Agrees opts man) {u : Str} {v : OptVals} :
    (∀ v', longOpt space opts ('-' :: '-' :: u) v = .set v' → ∃ i, CmdWords (Read space) man [i] ['-' :: '-' :: u] ∧ v' = applied [i] v) ∧
    (∀ o v', longOpt space opts ('-' :: '-' :: u) v = .want o v' → v' = v ∧ ∃ s, o = defOf s ∧ Means man u s ∧ (s.takes = .number ∨ s.takes = .text)) := by
  unfold longOpt
  rw [takeWhile_dash, dropWhile_dash]
  have hcont : ('-' :: '-' :: u).contains '=' = u.contains '=' := by
    rw [List.contains_cons, List.contains_cons]
    rfl
  rw [hcont]
  cases hm : matchAbbrev opts ('-' :: '-' :: u.takeWhile (· ≠ '=')) with
  | none => exact ⟨fun _ h => (by cases h), fun _ _ h => (by cases h)⟩
  | some o =>
    have hne : u.takeWhile (· ≠ '=') ≠ [] := fun h => by
      rw [h, A.two] at hm
      cases hm
    obtain ⟨s, hs, rfl⟩ := matchAbbrev_sound A hne hm
    dsimp only
    rcases splitEq u with ⟨h1, h2⟩ | ⟨t, h1, h2⟩
    · rw [h2] at hs
      rw [h1]
      cases ht : s.takes
      · simp only [defOf, switchKind, ht, Bool.false_eq_true, if_false]
        refine ⟨fun v' h => ?_, fun _ _ h => (by cases h)⟩
        cases h
        exact ⟨(s.name, .on), .name hs ht .nil, rfl⟩
      · simp only [defOf, switchKind, ht, Bool.false_eq_true, if_false]
        refine ⟨fun v' h => (by cases h), fun o v' h => ?_⟩
        cases h
        exact ⟨rfl, s, by simp only [ht], hs, Or.inl ht⟩
      · simp only [defOf, switchKind, ht, Bool.false_eq_true, if_false]
        refine ⟨fun v' h => (by cases h), fun o v' h => ?_⟩
        cases h
        exact ⟨rfl, s, by simp only [ht], hs, Or.inr ht⟩
      · simp only [defOf, switchKind, ht, Bool.false_eq_true, if_false]
        exact ⟨fun _ h => (by cases h), fun _ _ h => (by cases h)⟩
    · have hc : u.contains '=' = true := by
        rw [h1]
        exact List.contains_iff_mem.2 (by simp)
      rw [hc, h2, List.drop_one, List.tail_cons]
      have key : (s.takes = .number ∨ s.takes = .text) → ∀ v', storeValue space (defOf s) t v = some v' →
          ∃ i, CmdWords (Read space) man [i] ['-' :: '-' :: u] ∧ v' = applied [i] v := by
        intro hs' v' h
        obtain ⟨x, hx, rfl⟩ := storeValue_back hs' h
        refine ⟨(s.name, x), ?_, rfl⟩
        rw [h1]
        exact .nameWith hs hx .nil
      cases ht : s.takes
      · simp only [defOf, switchKind, ht, if_true]
        exact ⟨fun _ h => (by cases h), fun _ _ h => (by cases h)⟩
      · have key := key (Or.inl ht)
        have hk : (defOf s).kind = .int := by simp only [defOf, switchKind, ht]
        rw [hk]
        simp only [if_true]
        cases hst : storeValue space (defOf s) t v with
        | none => exact ⟨fun _ h => (by cases h), fun _ _ h => (by cases h)⟩
        | some v1 =>
          refine ⟨fun v' h => ?_, fun _ _ h => (by cases h)⟩
          cases h
          exact key _ hst
      · have key := key (Or.inr ht)
        have hk : (defOf s).kind = .str := by simp only [defOf, switchKind, ht]
        rw [hk]
        simp only [if_true]
        cases hst : storeValue space (defOf s) t v with
        | none => exact ⟨fun _ h => (by cases h), fun _ _ h => (by cases h)⟩
        | some v1 =>
          refine ⟨fun v' h => ?_, fun _ _ h => (by cases h)⟩
          cases h
          exact key _ hst
      · simp only [defOf, switchKind, ht, if_true]
        exact ⟨fun _ h => (by cases h), fun _ _ h => (by cases h)⟩

theorem shortOpts_back (A : Agrees opts man) : ∀ (cs : Str) (v : OptVals),
    (∀ v', shortOpts space opts cs v = .set v' → (∃ js, Letters man js cs ∧ v' = applied js v) ∨
      ∃ js cs' c s x t, cs = cs' ++ c :: t ∧ t ≠ [] ∧ Letters man js cs' ∧ Letter man c s ∧ Writes (Read space) s.takes x t ∧ v' = applied (js ++ [(s.name, x)]) v) ∧
    (∀ o v', shortOpts space opts cs v = .want o v' → ∃ js cs' c s, cs = cs' ++ [c] ∧ Letters man js cs' ∧ Letter man c s ∧ o = defOf s ∧
      (s.takes = .number ∨ s.takes = .text) ∧ v' = applied js v)
  | [], v => ⟨fun v' h => (by cases h; exact Or.inl ⟨[], .nil, rfl⟩), fun _ _ h => (by cases h)⟩
  | c :: t, v => by
    rw [shortOpts]
    cases hf : opts.find? fun o => o.short = some c with
    | none => exact ⟨fun _ h => (by cases h), fun _ _ h => (by cases h)⟩
    | some o =>
      have h1 := List.find?_some hf
      rw [decide_eq_true_eq] at h1
      obtain ⟨s, hs, rfl⟩ := A.there _ (List.mem_of_find?_eq_some hf)
      have hl : Letter man c s := ⟨hs, h1⟩
      dsimp only
      have key : (s.takes = .number ∨ s.takes = .text) → (∀ v', (if t = [] then OptStep.want (defOf s) v else match storeValue space (defOf s) t v with
            | some v => .set v
            | none => .bad) = .set v' → (∃ js, Letters man js (c :: t) ∧ v' = applied js v) ∨
            ∃ js cs' c' s x t', c :: t = cs' ++ c' :: t' ∧ t' ≠ [] ∧ Letters man js cs' ∧ Letter man c' s ∧ Writes (Read space) s.takes x t' ∧
              v' = applied (js ++ [(s.name, x)]) v) ∧
          (∀ o v', (if t = [] then OptStep.want (defOf s) v else match storeValue space (defOf s) t v with
            | some v => .set v
            | none => .bad) = .want o v' → ∃ js cs' c' s, c :: t = cs' ++ [c'] ∧ Letters man js cs' ∧ Letter man c' s ∧ o = defOf s ∧
              (s.takes = .number ∨ s.takes = .text) ∧ v' = applied js v) := by
        intro hs'
        by_cases ht : t = []
        · subst ht
          simp only [if_true]
          refine ⟨fun _ h => (by cases h), fun o v' h => ?_⟩
          cases h
          exact ⟨[], [], c, s, rfl, .nil, hl, rfl, hs', rfl⟩
        · simp only [if_neg ht]
          cases hst : storeValue space (defOf s) t v with
          | none => exact ⟨fun _ h => (by cases h), fun _ _ h => (by cases h)⟩
          | some v1 =>
            refine ⟨fun v' h => ?_, fun _ _ h => (by cases h)⟩
            cases h
            obtain ⟨x, hx, rfl⟩ := storeValue_back hs' hst
            exact Or.inr ⟨[], [], c, s, x, t, rfl, ht, .nil, hl, hx, rfl⟩
      cases ht : s.takes
      · have hk : (defOf s).kind = .flag := by simp only [defOf, switchKind, ht]
        rw [hk]
        dsimp only
        obtain ⟨i1, i2⟩ := shortOpts_back A t (dictSet v (defOf s).dest (.flag true))
        refine ⟨fun v' h => ?_, fun o v' h => ?_⟩
        · rcases i1 v' h with ⟨js, h1, rfl⟩ | ⟨js, cs', c', s', x, t', rfl, h2, h3, h4, h5, rfl⟩
          · exact Or.inl ⟨(s.name, .on) :: js, .cons hl ht h1, rfl⟩
          · exact Or.inr ⟨(s.name, .on) :: js, c :: cs', c', s', x, t', rfl, h2, .cons hl ht h3, h4, h5, rfl⟩
        · obtain ⟨js, cs', c', s', rfl, h2, h3, h4, h5, rfl⟩ := i2 o v' h
          exact ⟨(s.name, .on) :: js, c :: cs', c', s', rfl, .cons hl ht h2, h3, h4, h5, rfl⟩
      · have hk : (defOf s).kind = .int := by simp only [defOf, switchKind, ht]
        rw [hk]
        exact key (Or.inl ht)
      · have hk : (defOf s).kind = .str := by simp only [defOf, switchKind, ht]
        rw [hk]
        exact key (Or.inr ht)
      · have hk : (defOf s).kind = .help := by simp only [defOf, switchKind, ht]
        rw [hk]
        exact ⟨fun _ h => (by cases h), fun _ _ h => (by cases h)⟩

theorem cmdWords_append {is js : List (Str × Setting)} {ws us : List Str} (h : CmdWords num man is ws) (h' : CmdWords num man js us) :
    CmdWords num man (is ++ js) (ws ++ us) := by
  induction h with
  | nil => exact h'
  | name h ht hs ih => exact .name h ht ih
  | nameThen h hv hs ih => exact .nameThen h hv ih
  | nameWith h hv hs ih => exact .nameWith h hv ih
  | letters h hc hs ih => rw [List.append_assoc]; exact .letters h hc ih
  | lettersThen h hc hv hs ih => rw [List.append_assoc, List.cons_append]; exact .lettersThen h hc hv ih
  | lettersWith h hc hv hne hs ih => rw [List.append_assoc, List.cons_append]; exact .lettersWith h hc hv hne ih

/-- What is read without an error is a command line as the help tells. -/
theorem process_back (A : Agrees opts man) : ∀ (n : Nat) (args : List Str), args.length ≤ n → ∀ v l v' p, processArgs space opts none v l args = .ok v' p →
    ∃ is prog, CmdLine (Read space) man is prog args ∧ v' = applied is v ∧ p = l ++ prog := by
  intro n
  induction n with
  | zero =>
    intro args hn v l v' p h
    rw [List.length_eq_zero_iff.1 (Nat.le_zero.1 hn)] at h ⊢
    cases h
    exact ⟨[], [], .nil, rfl, (List.append_nil l).symm⟩
  | succ n ih =>
    intro args hn v l v' p h
    have wanted : ∀ (s : Switch) (v1 : OptVals) (rest : List Str), (s.takes = .number ∨ s.takes = .text) → rest.length ≤ n + 1 →
        processArgs space opts (some (defOf s)) v1 l rest = .ok v' p →
        ∃ x t args' is prog, rest = t :: args' ∧ Writes (Read space) s.takes x t ∧ CmdLine (Read space) man is prog args' ∧
          v' = applied is (dictSet v1 (destOf s.name) (valOf x)) ∧ p = l ++ prog := by
      intro s v1 rest hs hr h
      cases rest with
      | nil => cases h
      | cons t args' =>
        rw [processArgs] at h
        cases hst : storeValue space (defOf s) t v1 with
        | none => rw [hst] at h; cases h
        | some v2 =>
          rw [hst] at h
          obtain ⟨x, hx, rfl⟩ := storeValue_back hs hst
          obtain ⟨is, prog, h1, h2, h3⟩ := ih args' (by simpa using hr) _ _ _ _ h
          exact ⟨x, t, args', is, prog, rfl, hx, h1, h2, h3⟩
    cases args with
    | nil =>
      cases h
      exact ⟨[], [], .nil, rfl, (List.append_nil l).symm⟩
    | cons a rest =>
      have hn' : rest.length ≤ n := by simpa using hn
      by_cases hd : Dashed a
      · obtain ⟨c, u, rfl⟩ := hd
        by_cases hc : c = '-'
        · subst hc
          by_cases hu : u = []
          · subst hu
            have : processArgs space opts none v l (['-', '-'] :: rest) = .ok v (l ++ rest) := rfl
            rw [this] at h
            cases h
            exact ⟨[], rest, .rest rest, rfl, rfl⟩
          · rw [process_long v l rest hu] at h
            obtain ⟨b1, b2⟩ := longOpt_back (space := space) A (u := u) (v := v)
            cases hlo : longOpt space opts ('-' :: '-' :: u) v with
            | set v1 =>
              rw [hlo] at h
              obtain ⟨i, hi, rfl⟩ := b1 v1 hlo
              obtain ⟨is, prog, h1, rfl, h3⟩ := ih rest hn' _ _ _ _ h
              exact ⟨[i] ++ is, prog, .words hi h1, rfl, h3⟩
            | want o v1 =>
              rw [hlo] at h
              obtain ⟨rfl, s, rfl, hm, hs⟩ := b2 o v1 hlo
              obtain ⟨x, t, args', is, prog, rfl, hx, h1, rfl, h3⟩ := wanted s v1 rest hs (by omega) h
              exact ⟨[(s.name, x)] ++ is, prog, .words (.nameThen hm hx .nil) h1, rfl, h3⟩
            | help => rw [hlo] at h; cases h
            | bad => rw [hlo] at h; cases h
        · rw [process_short v l rest (by simp) (by rintro t ht; exact hc (List.cons.inj ht).1)] at h
          obtain ⟨b1, b2⟩ := shortOpts_back (space := space) A (c :: u) v
          cases hlo : shortOpts space opts (c :: u) v with
          | set v1 =>
            rw [hlo] at h
            obtain ⟨is, prog, h1, rfl, h3⟩ := ih rest hn' _ _ _ _ h
            rcases b1 v1 hlo with ⟨js, hl, rfl⟩ | ⟨js, cs', c', s, x, t, he, hne, hl, hc', hx, rfl⟩
            · refine ⟨(js ++ []) ++ is, prog, .words (.letters hl (by simp) .nil) h1, ?_, h3⟩
              rw [List.append_nil, applied_append]
            · rw [he]
              refine ⟨(js ++ [(s.name, x)]) ++ is, prog, .words (.lettersWith hl hc' hx hne .nil) h1, ?_, h3⟩
              rw [applied_append (js ++ [(s.name, x)])]
          | want o v1 =>
            rw [hlo] at h
            obtain ⟨js, cs', c', s, he, hl, hc', rfl, hs, rfl⟩ := b2 o v1 hlo
            obtain ⟨x, t, args', is, prog, rfl, hx, h1, rfl, h3⟩ := wanted s _ rest hs (by omega) h
            rw [he]
            refine ⟨(js ++ [(s.name, x)]) ++ is, prog, .words (.lettersThen hl hc' hx .nil) h1, ?_, h3⟩
            rw [applied_append, applied_append]
            rfl
          | help => rw [hlo] at h; cases h
          | bad => rw [hlo] at h; cases h
      · rw [process_plain hd] at h
        obtain ⟨is, prog, h1, h2, h3⟩ := ih rest hn' _ _ _ _ h
        exact ⟨is, a :: prog, .plain hd h1, h2, by rw [h3, List.append_assoc]; rfl⟩


/-! ## what is set in the end -/

theorem dictGet_dictSet {β : Type} (d : List (Str × β)) (k k' : Str) (x : β) : dictGet (dictSet d k x) k' = if k = k' then some x else dictGet d k' := by
  unfold dictSet
  have keep : ∀ d : List (Str × β), k ≠ k' → dictGet (d.map fun e => if e.1 = k then (k, x) else e) k' = dictGet d k' := by
    intro d hk
    induction d with
    | nil => rfl
    | cons e d ih =>
      unfold dictGet at ih ⊢
      rw [List.map_cons, List.find?_cons, List.find?_cons]
      by_cases he : e.1 = k
      · rw [if_pos he, decide_eq_false hk, decide_eq_false (by rw [he]; exact hk)]
        exact ih
      · rw [if_neg he]
        by_cases he' : e.1 = k'
        · rw [decide_eq_true he']
        · rw [decide_eq_false he']
          exact ih
  have self : ∀ d : List (Str × β), dictHas d k = true → dictGet (d.map fun e => if e.1 = k then (k, x) else e) k = some x := by
    intro d hd
    induction d with
    | nil => cases hd
    | cons e d ih =>
      unfold dictGet at ih ⊢
      rw [List.map_cons, List.find?_cons]
      by_cases he : e.1 = k
      · rw [if_pos he, decide_eq_true rfl]
        rfl
      · rw [if_neg he, decide_eq_false he]
        refine ih ?_
        unfold dictHas at hd ⊢
        rw [List.any_cons, decide_eq_false he, Bool.false_or] at hd
        exact hd
  by_cases hh : dictHas d k = true
  · rw [if_pos hh]
    by_cases hk : k = k'
    · subst hk
      rw [if_pos rfl, self d hh]
    · rw [if_neg hk, keep d hk]
  · rw [if_neg hh]
    by_cases hk : k = k'
    · subst hk
      rw [if_pos rfl]
      have : dictGet d k = none := by
        rw [dictGet_none]
        exact dictHas_false.1 (by simpa using hh)
      unfold dictGet at this ⊢
      rw [List.find?_append]
      rw [Option.map_eq_none_iff] at this
      rw [this]
      simp
    · rw [if_neg hk]
      unfold dictGet
      rw [List.find?_append]
      cases d.find? fun e => e.1 = k' with
      | some e => rfl
      | none => simp [hk]

theorem lastSetting_cons (i : Str × Setting) (is : List (Str × Setting)) (name : Str) :
    lastSetting (i :: is) name = match lastSetting is name with
      | some x => some x
      | none => if i.1 = name then some i.2 else none := by
  unfold lastSetting
  rw [List.reverse_cons, List.find?_append]
  cases is.reverse.find? fun i => i.1 = name with
  | some x => rfl
  | none =>
    by_cases h : i.1 = name
    · simp [h]
    · simp [h]

def fit : CmdTakes → Setting → Prop
  | .nothing, .on => True
  | .number, .number _ => True
  | .text, .text _ => True
  | _, _ => False

/-- The setting fits the switch. -/
def Fits (man : List Switch) (i : Str × Setting) : Prop := ∃ s ∈ man, i.1 = s.name ∧ fit s.takes i.2

theorem fits_writes {s : Switch} (hs : s ∈ man) {x : Setting} {t : Str} (h : Writes num s.takes x t) : Fits man (s.name, x) := by
  refine ⟨s, hs, rfl, ?_⟩
  obtain ⟨name, letter, takes⟩ := s
  dsimp only at h
  cases h <;> trivial

theorem fits_letters {js : List (Str × Setting)} {cs : Str} (h : Letters man js cs) : ∀ i ∈ js, Fits man i := by
  induction h with
  | nil => intro i hi; cases hi
  | @cons c s is cs hl ht hs ih =>
    intro i hi
    rcases List.mem_cons.1 hi with rfl | hi
    · exact ⟨s, hl.1, rfl, by rw [ht]; trivial⟩
    · exact ih i hi

theorem fits_words {is : List (Str × Setting)} {ws : List Str} (h : CmdWords num man is ws) : ∀ i ∈ is, Fits man i := by
  induction h with
  | nil => intro i hi; cases hi
  | @name w s is ws h ht hs ih =>
    intro i hi
    rcases List.mem_cons.1 hi with rfl | hi
    · exact ⟨s, h.1, rfl, by rw [ht]; trivial⟩
    · exact ih i hi
  | nameThen h hv hs ih =>
    intro i hi
    rcases List.mem_cons.1 hi with rfl | hi
    · exact fits_writes h.1 hv
    · exact ih i hi
  | nameWith h hv hs ih =>
    intro i hi
    rcases List.mem_cons.1 hi with rfl | hi
    · exact fits_writes h.1 hv
    · exact ih i hi
  | letters h hc hs ih =>
    intro i hi
    rcases List.mem_append.1 hi with hi | hi
    · exact fits_letters h i hi
    · exact ih i hi
  | lettersThen h hc hv hs ih =>
    intro i hi
    rcases List.mem_append.1 hi with hi | hi
    · exact fits_letters h i hi
    · rcases List.mem_cons.1 hi with rfl | hi
      · exact fits_writes hc.1 hv
      · exact ih i hi
  | lettersWith h hc hv hne hs ih =>
    intro i hi
    rcases List.mem_append.1 hi with hi | hi
    · exact fits_letters h i hi
    · rcases List.mem_cons.1 hi with rfl | hi
      · exact fits_writes hc.1 hv
      · exact ih i hi

theorem fits_line {is : List (Str × Setting)} {prog args : List Str} (h : CmdLine num man is prog args) : ∀ i ∈ is, Fits man i := by
  induction h with
  | nil => intro i hi; cases hi
  | rest => intro i hi; cases hi
  | words hw h ih =>
    intro i hi
    rcases List.mem_append.1 hi with hi | hi
    · exact fits_words hw i hi
    · exact ih i hi
  | plain hw h ih => exact ih

theorem applied_get (A : Agrees opts man) {s : Switch} (hs : s ∈ man) : ∀ {is : List (Str × Setting)}, (∀ i ∈ is, Fits man i) → ∀ v,
    dictGet (applied is v) (destOf s.name) = match lastSetting is s.name with
      | some x => some (valOf x)
      | none => dictGet v (destOf s.name)
  | [], _, v => rfl
  | i :: is, hi, v => by
    have ih := applied_get A hs (is := is) (fun j hj => hi j (List.mem_cons_of_mem _ hj)) (dictSet v (destOf i.1) (valOf i.2))
    show dictGet (applied is (dictSet v (destOf i.1) (valOf i.2))) _ = _
    rw [ih, lastSetting_cons]
    cases lastSetting is s.name with
    | some x => rfl
    | none =>
      dsimp only
      rw [dictGet_dictSet]
      obtain ⟨s', hs', he, -⟩ := hi i List.mem_cons_self
      by_cases hn : i.1 = s.name
      · rw [if_pos (by rw [hn]), if_pos hn]
      · rw [if_neg (fun h => hn (by rw [he] at h ⊢; rw [A.names s' hs' s hs h])), if_neg hn]

/-- How the programs keep what holds for a switch. -/
def shown (s : Switch) : Option Setting → OptVal
  | some x => valOf x
  | none => if s.takes = .nothing then .flag false else .none

/-- The programs keep these settings. -/
def Holds (man : List Switch) (is : List (Str × Setting)) (v : OptVals) : Prop :=
  ∀ s ∈ man, s.takes ≠ .help → dictGet v (destOf s.name) = some (shown s (settingOf is s.name))

theorem holds_applied (A : Agrees opts man) (hd : ∀ s ∈ man, s.takes ≠ .help → dictGet (defaults opts) (destOf s.name) = some (shown s (factory s.name)))
    {is : List (Str × Setting)} (hi : ∀ i ∈ is, Fits man i) : Holds man is (applied is (defaults opts)) := by
  intro s hs ht
  rw [applied_get A hs hi]
  unfold settingOf
  cases lastSetting is s.name with
  | some x => rfl
  | none =>
    rw [hd s hs ht]
    rfl

theorem strace_defaults : ∀ s ∈ straceManual, s.takes ≠ .help → dictGet (defaults straceOptions) (destOf s.name) = some (shown s (factory s.name)) := by decide +kernel
theorem gdb_defaults : ∀ s ∈ gdbManual, s.takes ≠ .help → dictGet (defaults gdbOptions) (destOf s.name) = some (shown s (factory s.name)) := by decide +kernel

end

/-- Every command line as the help tells is read as the help tells: the switches in all their forms and orders, `--` and the words of the program. -/
theorem C139_options {space : Char → Bool} (hs : Tidy space) {is : List (Str × Setting)} {prog args : List Str} :
    (CmdLine Decimal straceManual is prog args → ∃ v, parseArgs space straceOptions args = .ok v prog ∧ Holds straceManual is v) ∧
    (CmdLine Decimal gdbManual is prog args → ∃ v, parseArgs space gdbOptions args = .ok v prog ∧ Holds gdbManual is v) :=
  ⟨fun h => ⟨_, process_line strace_agrees (reads_decimal hs) h _ _, holds_applied strace_agrees strace_defaults (fits_line h)⟩,
   fun h => ⟨_, process_line gdb_agrees (reads_decimal hs) h _ _, holds_applied gdb_agrees gdb_defaults (fits_line h)⟩⟩

/-- And no other: what is read without an error has this form, with the numbers Python reads. Otherwise the program ends with 0 or 2. -/
theorem C139_only {space : Char → Bool} {args : List Str} :
    (∀ v prog, parseArgs space straceOptions args = .ok v prog → ∃ is, CmdLine (Read space) straceManual is prog args ∧ Holds straceManual is v) ∧
    (∀ v prog, parseArgs space gdbOptions args = .ok v prog → ∃ is, CmdLine (Read space) gdbManual is prog args ∧ Holds gdbManual is v) := by
  refine ⟨fun v prog h => ?_, fun v prog h => ?_⟩
  · obtain ⟨is, prog', h1, rfl, h3⟩ := process_back strace_agrees _ args (Nat.le_refl _) _ _ _ _ h
    rw [List.nil_append] at h3
    subst h3
    exact ⟨is, h1, holds_applied strace_agrees strace_defaults (fits_line h1)⟩
  · obtain ⟨is, prog', h1, rfl, h3⟩ := process_back gdb_agrees _ args (Nat.le_refl _) _ _ _ _ h
    rw [List.nil_append] at h3
    subst h3
    exact ⟨is, h1, holds_applied gdb_agrees gdb_defaults (fits_line h1)⟩

/-! ## the programs -/

theorem lastSetting_mem {is : List (Str × Setting)} {name : Str} {x : Setting} (h : lastSetting is name = some x) : (name, x) ∈ is := by
  unfold lastSetting at h
  rw [Option.map_eq_some_iff] at h
  obtain ⟨i, hi, rfl⟩ := h
  have h1 := List.find?_some hi
  rw [decide_eq_true_eq] at h1
  have h2 := List.mem_reverse.1 (List.mem_of_find?_eq_some hi)
  rw [← h1]
  exact h2

section
variable {opts : List OptDef} {man : List Switch}

theorem last_fits (A : Agrees opts man) {is : List (Str × Setting)} (hi : ∀ i ∈ is, Fits man i) {s : Switch} (hs : s ∈ man) {x : Setting}
    (h : lastSetting is s.name = some x) : fit s.takes x := by
  obtain ⟨s', hs', he, hf⟩ := hi _ (lastSetting_mem h)
  have : s' = s := A.names s' hs' s hs (by rw [← he])
  subst this
  exact hf

theorem flag_held (A : Agrees opts man) {is : List (Str × Setting)} (hi : ∀ i ∈ is, Fits man i) {v : OptVals} (H : Holds man is v) {name dest : String} {l : Option Char}
    (hs : (⟨name.toList, l, .nothing⟩ : Switch) ∈ man) (hd : dest.toList = destOf name.toList) (hf : factory name.toList = none) : isOn v dest = isSet is name := by
  unfold isOn isSet
  have := H _ hs (by simp)
  dsimp only at this
  rw [hd, this]
  unfold settingOf
  cases hl : lastSetting is name.toList with
  | none =>
    rw [hf]
    rfl
  | some x =>
    have hx := last_fits A hi hs hl
    cases x with
    | on => rfl
    | number n => exact hx.elim
    | text t => exact hx.elim

theorem text_held (A : Agrees opts man) {is : List (Str × Setting)} (hi : ∀ i ∈ is, Fits man i) {v : OptVals} (H : Holds man is v) {name dest : String} {l : Option Char}
    (hs : (⟨name.toList, l, .text⟩ : Switch) ∈ man) (hd : dest.toList = destOf name.toList) (hf : factory name.toList = none) : textOf v dest = givenText is name := by
  unfold textOf givenText
  have := H _ hs (by simp)
  dsimp only at this
  rw [hd, this]
  unfold settingOf
  cases hl : lastSetting is name.toList with
  | none =>
    rw [hf]
    rfl
  | some x =>
    have hx := last_fits A hi hs hl
    cases x with
    | on => exact hx.elim
    | number n => exact hx.elim
    | text t => rfl

theorem pid_held (A : Agrees opts man) {is : List (Str × Setting)} (hi : ∀ i ∈ is, Fits man i) {v : OptVals} (H : Holds man is v)
    (hs : (⟨"pid".toList, some 'p', .number⟩ : Switch) ∈ man) :
    (lastSetting is "pid".toList = none ∧ dictGet v "pid".toList = some .none) ∨
      ∃ n, lastSetting is "pid".toList = some (.number n) ∧ dictGet v "pid".toList = some (.int n) := by
  have := H _ hs (by simp)
  dsimp only at this
  rw [show destOf "pid".toList = "pid".toList from by decide] at this
  rw [this]
  unfold settingOf
  cases hl : lastSetting is "pid".toList with
  | none => exact Or.inl ⟨rfl, by decide⟩
  | some x =>
    have hx := last_fits A hi hs hl
    cases x with
    | on => exact hx.elim
    | number n => exact Or.inr ⟨n, rfl, rfl⟩
    | text t => exact hx.elim

end

theorem locateFirst_cases (locate : Str → Str) (prog : List Str) : (prog = [] → locateFirst locate prog = []) ∧
    (∀ p as, prog = p :: as → locateFirst locate prog = locate p :: as) := ⟨fun h => by rw [h]; rfl, fun p as h => by rw [h]; rfl⟩

/-- strace.py does what its command line tells. Missing: a process 0 or an empty name of a file, and numbers that begin with 0 (see below). -/
theorem C139_strace_partial {E : CmdEnv} (hs : Tidy E.space) {is : List (Str × Setting)} {prog args : List Str} (h : CmdLine Decimal straceManual is prog args)
    (hl : isSet is "list-syscalls" = false) (hp : prog ≠ [] ∨ ∃ n, lastSetting is "pid".toList = some (.number n))
    (hf : (onlyFilter E.tables E.space ⟨givenText is "syscalls", isSet is "filename", isSet is "socket"⟩).isSome = true)
    (hr : ∀ r, givenText is "ignore-regex" = some r → r = [] ∨ E.regexOk r = true) :
    ∃ v prog', straceParse E args = .ok v prog' ∧ (prog = [] → prog' = []) ∧ (∀ p as, prog = p :: as → prog' = E.locate p :: as) ∧
      (∀ s ∈ straceManual, s.takes ≠ .help → s.name ≠ "show-pid".toList → dictGet v (destOf s.name) = some (shown s (settingOf is s.name))) ∧
      isOn v "show_pid" = (isSet is "show-pid" || isSet is "fork") ∧
      (lastSetting is "pid".toList = none → tracedBy v prog' = .start prog') ∧
      (∀ n, lastSetting is "pid".toList = some (.number n) → n ≠ 0 → tracedBy v prog' = .attach n) ∧
      (∀ f, givenText is "output" = some f → f ≠ [] → logFile v = some f) ∧ (givenText is "output" = none → logFile v = none) := by
  obtain ⟨v, hv, H⟩ := (C139_options hs (prog := prog) (is := is) (args := args)).1 h
  have hi := fits_line h
  have A := strace_agrees
  have e1 := flag_held A hi H (name := "list-syscalls") (dest := "list_syscalls") (l := none) (by decide) (by decide) (by decide)
  have e2 := flag_held A hi H (name := "filename") (dest := "filename") (l := none) (by decide) (by decide) (by decide)
  have e3 := flag_held A hi H (name := "socket") (dest := "socket") (l := none) (by decide) (by decide) (by decide)
  have e4 := flag_held A hi H (name := "fork") (dest := "fork") (l := some 'f') (by decide) (by decide) (by decide)
  have e5 := flag_held A hi H (name := "show-pid") (dest := "show_pid") (l := none) (by decide) (by decide) (by decide)
  have e6 := text_held A hi H (name := "syscalls") (dest := "syscalls") (l := some 'e') (by decide) (by decide) (by decide)
  have e7 := text_held A hi H (name := "ignore-regex") (dest := "ignore_regex") (l := none) (by decide) (by decide) (by decide)
  have e8 := text_held A hi H (name := "output") (dest := "output") (l := some 'o') (by decide) (by decide) (by decide)
  have ep := pid_held A hi H (by decide)
  unfold straceParse
  rw [hv]
  dsimp only
  rw [if_neg (by rw [e1, hl]; simp)]
  rw [if_neg (by
    rintro ⟨h1, h2⟩
    rcases hp with hp | ⟨n, hn⟩
    · exact hp h2
    · rcases ep with ⟨h3, -⟩ | ⟨m, -, h3⟩
      · rw [hn] at h3; cases h3
      · rw [h1] at h3; cases h3)]
  rw [if_neg (by
    rw [e6, e2, e3]
    intro hn
    rw [Option.isNone_iff_eq_none] at hn
    rw [hn] at hf
    cases hf)]
  rw [if_neg (by
    rw [e7]
    cases hg : givenText is "ignore-regex" with
    | none => simp
    | some r =>
      rcases hr r hg with rfl | hr
      · simp
      · simp [hr])]
  have keep : ∀ k : Str, k ≠ "show_pid".toList → dictGet (if isOn v "fork" = true then dictSet v "show_pid".toList (.flag true) else v) k = dictGet v k := by
    intro k hk
    split
    · rw [dictGet_dictSet, if_neg (Ne.symm hk)]
    · rfl
  have htr : ∀ p, tracedBy (if isOn v "fork" = true then dictSet v "show_pid".toList (.flag true) else v) p = tracedBy v p := fun p => by
    unfold tracedBy
    rw [keep _ (by decide)]
  have hlog : logFile (if isOn v "fork" = true then dictSet v "show_pid".toList (.flag true) else v) = logFile v := by
    unfold logFile textOf
    rw [keep _ (by decide)]
  refine ⟨_, _, rfl, (locateFirst_cases E.locate prog).1, (locateFirst_cases E.locate prog).2, fun s hs' ht hn => ?_, ?_, fun hpid => ?_, fun n hpid hn => ?_,
    fun f hf' hne => ?_, fun hf' => ?_⟩
  · rw [keep _ (fun hd => hn (by
      have := A.names s hs' ⟨"show-pid".toList, none, .nothing⟩ (by decide) (by rw [hd]; decide)
      rw [this]))]
    exact H s hs' ht
  · rw [← e5, ← e4]
    cases hfk : isOn v "fork" with
    | true =>
      simp only [if_true, Bool.or_true]
      unfold isOn
      rw [dictGet_dictSet, if_pos rfl]
      decide
    | false => simp
  · rw [htr]
    unfold tracedBy
    rcases ep with ⟨-, h1⟩ | ⟨n, h1, -⟩
    · rw [h1]
    · rw [hpid] at h1; cases h1
  · rw [htr]
    unfold tracedBy
    rcases ep with ⟨h1, -⟩ | ⟨m, h1, h2⟩
    · rw [hpid] at h1; cases h1
    · rw [hpid] at h1
      cases h1
      rw [h2]
      simp [hn]
  · rw [hlog]
    unfold logFile
    rw [e8, hf']
    simp [hne]
  · rw [hlog]
    unfold logFile
    rw [e8, hf']

/-- gdb.py does what its command line tells. Missing: a process 0, and numbers that begin with 0. -/
theorem C139_gdb_partial {E : CmdEnv} (hs : Tidy E.space) {is : List (Str × Setting)} {prog args : List Str} (h : CmdLine Decimal gdbManual is prog args)
    (hp : prog ≠ [] ∨ ∃ n, lastSetting is "pid".toList = some (.number n)) :
    ∃ v prog', gdbParse E args = .ok v prog' ∧ (prog = [] → prog' = []) ∧ (∀ p as, prog = p :: as → prog' = E.locate p :: as) ∧ Holds gdbManual is v ∧
      (lastSetting is "pid".toList = none → tracedBy v prog' = .start prog') ∧
      (∀ n, lastSetting is "pid".toList = some (.number n) → n ≠ 0 → tracedBy v prog' = .attach n) := by
  obtain ⟨v, hv, H⟩ := (C139_options hs (prog := prog) (is := is) (args := args)).2 h
  have ep := pid_held gdb_agrees (fits_line h) H (by decide)
  unfold gdbParse
  rw [hv]
  dsimp only
  rw [if_neg (by
    rintro ⟨h1, h2⟩
    rcases hp with hp | ⟨n, hn⟩
    · exact hp h2
    · rcases ep with ⟨h3, -⟩ | ⟨m, -, h3⟩
      · rw [hn] at h3; cases h3
      · rw [h1] at h3; cases h3)]
  refine ⟨_, _, rfl, (locateFirst_cases E.locate prog).1, (locateFirst_cases E.locate prog).2, H, fun hpid => ?_, fun n hpid hn => ?_⟩
  · unfold tracedBy
    rcases ep with ⟨-, h1⟩ | ⟨n, h1, -⟩
    · rw [h1]
    · rw [hpid] at h1; cases h1
  · unfold tracedBy
    rcases ep with ⟨h1, -⟩ | ⟨m, h1, h2⟩
    · rw [hpid] at h1; cases h1
    · rw [hpid] at h1
      cases h1
      rw [h2]
      simp [hn]

/-- The lines that end strace.py and gdb.py at once: with `--list-syscalls` the status is 0, with nothing to trace it is 1. -/
theorem C139_ends {E : CmdEnv} (hs : Tidy E.space) {is : List (Str × Setting)} {prog args : List Str} :
    (CmdLine Decimal straceManual is prog args → isSet is "list-syscalls" = true → straceParse E args = .exit 0) ∧
    (CmdLine Decimal straceManual is prog args → isSet is "list-syscalls" = false → prog = [] → lastSetting is "pid".toList = none → straceParse E args = .exit 1) ∧
    (CmdLine Decimal gdbManual is prog args → prog = [] → lastSetting is "pid".toList = none → gdbParse E args = .exit 1) := by
  refine ⟨fun h hl => ?_, fun h hl hp hpid => ?_, fun h hp hpid => ?_⟩
  · obtain ⟨v, hv, H⟩ := (C139_options hs (prog := prog) (is := is) (args := args)).1 h
    have e1 := flag_held strace_agrees (fits_line h) H (name := "list-syscalls") (dest := "list_syscalls") (l := none) (by decide) (by decide) (by decide)
    unfold straceParse
    rw [hv]
    dsimp only
    rw [if_pos (by rw [e1, hl])]
  · obtain ⟨v, hv, H⟩ := (C139_options hs (prog := prog) (is := is) (args := args)).1 h
    have e1 := flag_held strace_agrees (fits_line h) H (name := "list-syscalls") (dest := "list_syscalls") (l := none) (by decide) (by decide) (by decide)
    unfold straceParse
    rw [hv]
    dsimp only
    rw [if_neg (by rw [e1, hl]; simp), if_pos]
    refine ⟨?_, hp⟩
    rcases pid_held strace_agrees (fits_line h) H (by decide) with ⟨-, h1⟩ | ⟨n, h1, -⟩
    · exact h1
    · rw [hpid] at h1; cases h1
  · obtain ⟨v, hv, H⟩ := (C139_options hs (prog := prog) (is := is) (args := args)).2 h
    unfold gdbParse
    rw [hv]
    dsimp only
    rw [if_pos]
    refine ⟨?_, hp⟩
    rcases pid_held gdb_agrees (fits_line h) H (by decide) with ⟨-, h1⟩ | ⟨n, h1, -⟩
    · exact h1
    · rw [hpid] at h1; cases h1

theorem unknown_bad {opts : List OptDef} {man : List Switch} {space : Char → Bool} (A : Agrees opts man) {w : Str} (v : OptVals)
    (h : ∀ s, ¬Means man (w.takeWhile (· ≠ '=')) s) : longOpt space opts ('-' :: '-' :: w) v = .bad := by
  unfold longOpt
  rw [takeWhile_dash]
  cases hm : matchAbbrev opts ('-' :: '-' :: w.takeWhile (· ≠ '=')) with
  | none => rfl
  | some o =>
    by_cases hne : w.takeWhile (· ≠ '=') = []
    · rw [hne, A.two] at hm
      cases hm
    · obtain ⟨s, hs, -⟩ := matchAbbrev_sound A hne hm
      exact absurd hs (h s)

theorem stops_of {opts : List OptDef} {man : List Switch} (A : Agrees opts man) {space : Char → Bool} (hs : Tidy space) {is : List (Str × Setting)} {ws rest : List Str} (h : CmdWords Decimal man is ws) :
    (∀ w s, Means man w s → s.takes = .help → parseArgs space opts (ws ++ ('-' :: '-' :: w) :: rest) = .exit 0) ∧
    (∀ w, w ≠ [] → (∀ s, ¬Means man (w.takeWhile (· ≠ '=')) s) → parseArgs space opts (ws ++ ('-' :: '-' :: w) :: rest) = .exit 2) ∧
    (∀ c w, c ≠ '-' → (∀ s, ¬Letter man c s) → parseArgs space opts (ws ++ ('-' :: c :: w) :: rest) = .exit 2) := by
  refine ⟨fun w s hm ht => ?_, fun w hw hm => ?_, fun c w hc hm => ?_⟩
  · unfold parseArgs
    rw [process_words A (reads_decimal hs) h, process_long _ _ _ (means_clean A hm).1, longOpt_plain A hm, ht]
  · unfold parseArgs
    rw [process_words A (reads_decimal hs) h, process_long _ _ _ hw, unknown_bad A _ hm]
  · unfold parseArgs
    rw [process_words A (reads_decimal hs) h, process_short _ _ _ (by simp) (fun t ht => hc (List.cons.inj ht).1), shortOpts]
    cases hf : opts.find? fun o => o.short = some c with
    | none => rfl
    | some o =>
      have h1 := List.find?_some hf
      rw [decide_eq_true_eq] at h1
      obtain ⟨s, hs', rfl⟩ := A.there _ (List.mem_of_find?_eq_some hf)
      exact absurd ⟨hs', h1⟩ (hm s)

/-- After good switches: the help ends strace.py with 0, a name that means no switch (or more than one) or an unknown letter with 2. What comes after does
not count. -/
theorem C139_stops {space : Char → Bool} (hs : Tidy space) {is : List (Str × Setting)} {ws rest : List Str} (h : CmdWords Decimal straceManual is ws) :
    (∀ w s, Means straceManual w s → s.takes = .help → parseArgs space straceOptions (ws ++ ('-' :: '-' :: w) :: rest) = .exit 0) ∧
    (∀ w, w ≠ [] → (∀ s, ¬Means straceManual (w.takeWhile (· ≠ '=')) s) → parseArgs space straceOptions (ws ++ ('-' :: '-' :: w) :: rest) = .exit 2) ∧
    (∀ c w, c ≠ '-' → (∀ s, ¬Letter straceManual c s) → parseArgs space straceOptions (ws ++ ('-' :: c :: w) :: rest) = .exit 2) := stops_of strace_agrees hs h

/-- The same for gdb.py. -/
theorem C139_gdb_stops {space : Char → Bool} (hs : Tidy space) {is : List (Str × Setting)} {ws rest : List Str} (h : CmdWords Decimal gdbManual is ws) :
    (∀ w s, Means gdbManual w s → s.takes = .help → parseArgs space gdbOptions (ws ++ ('-' :: '-' :: w) :: rest) = .exit 0) ∧
    (∀ w, w ≠ [] → (∀ s, ¬Means gdbManual (w.takeWhile (· ≠ '=')) s) → parseArgs space gdbOptions (ws ++ ('-' :: '-' :: w) :: rest) = .exit 2) ∧
    (∀ c w, c ≠ '-' → (∀ s, ¬Letter gdbManual c s) → parseArgs space gdbOptions (ws ++ ('-' :: c :: w) :: rest) = .exit 2) := stops_of gdb_agrees hs h

/-! ## examples and what is not so -/

def blank : Char → Bool := (· == ' ')

theorem blank_tidy : Tidy blank := by unfold Tidy; decide

/-- A world with one system call, where every program is in /bin. -/
def cmdEnv : CmdEnv := ⟨blank, ⟨["open".toList, "read".toList], [], [], []⟩, fun r => r != ['('], fun p => "/bin/".toList ++ p⟩

/-- `-fo log --pid=12 --string 80 -- ls -l` -/
theorem line_given : CmdLine Decimal straceManual
    [("fork".toList, .on), ("output".toList, .text "log".toList), ("pid".toList, .number 12), ("string-length".toList, .number 80)]
    ["ls".toList, "-l".toList]
    ["-fo".toList, "log".toList, "--pid=12".toList, "--string".toList, "80".toList, "--".toList, "ls".toList, "-l".toList] :=
  .words (is := [("fork".toList, .on), ("output".toList, .text "log".toList), ("pid".toList, .number 12), ("string-length".toList, .number 80)])
    (ws := ["-fo".toList, "log".toList, "--pid=12".toList, "--string".toList, "80".toList])
    (.lettersThen (js := [("fork".toList, .on)]) (cs := ['f']) (c := 'o') (s := ⟨"output".toList, some 'o', .text⟩)
      (.cons (s := ⟨"fork".toList, some 'f', .nothing⟩) ⟨by decide, rfl⟩ rfl .nil) ⟨by decide, rfl⟩ (.text _)
      (.nameWith (w := "pid".toList) (v := "12".toList) (s := ⟨"pid".toList, some 'p', .number⟩) ⟨by decide, Or.inl rfl⟩ (.number (n := 12) (by unfold Decimal; decide))
        (.nameThen (w := "string".toList) (v := "80".toList) (s := ⟨"string-length".toList, some 's', .number⟩)
          ⟨by decide, Or.inr ⟨by decide, by decide, by decide⟩⟩ (.number (n := 80) (by unfold Decimal; decide)) .nil)))
    (.rest ["ls".toList, "-l".toList])

/-- `ls -q`, meant for the program, is a line of strace.py -/
theorem line_taken : CmdLine Decimal straceManual [("quiet".toList, .on)] ["ls".toList] ["ls".toList, "-q".toList] :=
  .plain (by rintro ⟨c, t, h⟩; simp at h)
    (.words (is := [("quiet".toList, .on)]) (js := []) (ws := ["-q".toList]) (args := [])
      (.letters (js := [("quiet".toList, .on)]) (cs := ['q']) (is := []) (.cons (s := ⟨"quiet".toList, some 'q', .nothing⟩) ⟨by decide, rfl⟩ rfl .nil) (by decide) .nil) .nil)

example : ∃ v, parseArgs blank straceOptions ["-fo".toList, "log".toList, "--pid=12".toList, "--string".toList, "80".toList, "--".toList, "ls".toList, "-l".toList] =
    .ok v ["ls".toList, "-l".toList] ∧ dictGet v "string_length".toList = some (.int 80) ∧ dictGet v "array_count".toList = some (.int 20) ∧
    dictGet v "fork".toList = some (.flag true) ∧ dictGet v "quiet".toList = some (.flag false) := by
  obtain ⟨v, h1, h2⟩ := (C139_options blank_tidy).1 line_given
  refine ⟨v, h1, ?_, ?_, ?_, ?_⟩
  · exact h2 ⟨"string-length".toList, some 's', .number⟩ (by decide) (by decide)
  · exact h2 ⟨"array-count".toList, none, .number⟩ (by decide) (by decide)
  · exact h2 ⟨"fork".toList, some 'f', .nothing⟩ (by decide) (by decide)
  · exact h2 ⟨"quiet".toList, some 'q', .nothing⟩ (by decide) (by decide)

example : ∃ is, CmdLine (Read blank) gdbManual is ["x".toList] ["--pi".toList, "0x1F".toList, "x".toList] ∧ settingOf is "pid".toList = some (.number 31) := by
  obtain ⟨is, h1, h2⟩ := (C139_only (space := blank) (args := ["--pi".toList, "0x1F".toList, "x".toList])).2
    (dictSet (defaults gdbOptions) "pid".toList (.int 31)) ["x".toList] (by decide +kernel)
  refine ⟨is, h1, ?_⟩
  have := h2 ⟨"pid".toList, some 'p', .number⟩ (by decide) (by decide)
  have h3 : dictGet (dictSet (defaults gdbOptions) "pid".toList (.int 31)) (destOf "pid".toList) = some (.int 31) := by decide +kernel
  rw [h3] at this
  cases hs : settingOf is "pid".toList with
  | none => rw [hs] at this; cases this
  | some x =>
    rw [hs] at this
    cases x with
    | number n => cases this; rfl
    | on => cases this
    | text t => cases this

example : ∃ v prog', straceParse cmdEnv ["-fo".toList, "log".toList, "--pid=12".toList, "--string".toList, "80".toList, "--".toList, "ls".toList, "-l".toList] = .ok v prog' ∧
    prog' = ["/bin/ls".toList, "-l".toList] ∧ isOn v "show_pid" = true ∧ tracedBy v prog' = .attach 12 ∧ logFile v = some "log".toList := by
  obtain ⟨v, p, h1, -, h2, -, h3, -, h4, h5, -⟩ := C139_strace_partial (E := cmdEnv) blank_tidy line_given (by decide) (Or.inl (by decide)) (by decide) (by
    intro r hr
    have : givenText [("fork".toList, .on), ("output".toList, .text "log".toList), ("pid".toList, .number 12), ("string-length".toList, .number 80)] "ignore-regex" = none := by decide
    rw [this] at hr
    cases hr)
  exact ⟨v, p, h1, h2 _ _ rfl, h3.trans (by decide), h4 12 (by decide) (by decide), h5 _ (by decide) (by decide)⟩

example : ∃ v prog', gdbParse cmdEnv ["--".toList, "ls".toList, "-p".toList] = .ok v prog' ∧ tracedBy v prog' = .start ["/bin/ls".toList, "-p".toList] := by
  obtain ⟨v, p, h1, -, h2, -, h3, -⟩ := C139_gdb_partial (E := cmdEnv) (is := []) blank_tidy (.rest ["ls".toList, "-p".toList]) (Or.inl (by decide))
  have := h2 _ _ rfl
  subst this
  exact ⟨v, _, h1, h3 rfl⟩

example : gdbParse cmdEnv [] = .exit 1 ∧ straceParse cmdEnv [] = .exit 1 :=
  ⟨(C139_ends (E := cmdEnv) blank_tidy).2.2 .nil rfl rfl, (C139_ends (E := cmdEnv) blank_tidy).2.1 .nil (by decide) rfl rfl⟩

example : parseArgs blank straceOptions ["--he".toList, "--what".toList] = .exit 0 ∧ parseArgs blank straceOptions ["--trace".toList, "ls".toList] = .exit 2 ∧
    parseArgs blank straceOptions ["-z".toList, "ls".toList] = .exit 2 := by
  obtain ⟨h1, h2, h3⟩ := C139_stops (rest := ["ls".toList]) blank_tidy (CmdWords.nil (num := Decimal) (man := straceManual))
  refine ⟨(C139_stops (rest := ["--what".toList]) blank_tidy (CmdWords.nil (num := Decimal) (man := straceManual))).1 "he".toList ⟨"help".toList, some 'h', .help⟩
    ⟨by decide, Or.inr ⟨by decide, by decide, by decide⟩⟩ rfl, h2 "trace".toList (by decide) ?_, h3 'z' [] (by decide) ?_⟩
  · rintro s ⟨hs, h | ⟨-, -, h⟩⟩
    · revert h
      revert s
      decide
    · have e1 := h ⟨"trace-exec".toList, none, .nothing⟩ (by decide) (by decide)
      have e2 := h ⟨"trace-clone".toList, none, .nothing⟩ (by decide) (by decide)
      rw [← e1] at e2
      revert e2
      decide
  · rintro s ⟨hs, h⟩
    revert h
    revert s
    decide

/-- `strace.py program arguments` does not pass all arguments to the program: those that look like switches are taken away or are an error, as long as there
is no `--` in front. -/
theorem C139_program_refuted : ¬(∀ prog : List Str, prog ≠ [] → (∀ p ∈ prog.head?, ¬Dashed p) → ∃ v, parseArgs blank straceOptions prog = .ok v prog) ∧
    (∃ v, parseArgs blank straceOptions ["ls".toList, "-q".toList] = .ok v ["ls".toList] ∧ isOn v "quiet" = true) ∧
    parseArgs blank straceOptions ["ls".toList, "-l".toList] = .exit 2 := by
  have h2 : ∃ v, parseArgs blank straceOptions ["ls".toList, "-q".toList] = .ok v ["ls".toList] ∧ isOn v "quiet" = true := by
    obtain ⟨v, h1, h2⟩ := (C139_options blank_tidy).1 line_taken
    exact ⟨v, h1, by
      unfold isOn
      rw [show dictGet v "quiet".toList = some (.flag true) from h2 ⟨"quiet".toList, some 'q', .nothing⟩ (by decide) (by decide)]
      decide⟩
  refine ⟨fun h => ?_, h2, by decide +kernel⟩
  obtain ⟨v, hv⟩ := h ["ls".toList, "-l".toList] (by decide) (by
    intro p hp
    cases hp
    rintro ⟨c, t, h⟩
    simp at h)
  rw [show parseArgs blank straceOptions ["ls".toList, "-l".toList] = .exit 2 by decide +kernel] at hv
  cases hv

/-- A process given by `--pid` is not always attached: `--pid 0` is accepted, but then a program is started, even without a program: `createChild([])`. -/
theorem C139_zero_refuted : (∃ v, gdbParse cmdEnv ["--pid".toList, "0".toList] = .ok v [] ∧ tracedBy v [] = .start []) ∧
    (∃ v, gdbParse cmdEnv ["-p0".toList, "ls".toList] = .ok v ["/bin/ls".toList] ∧ tracedBy v ["/bin/ls".toList] = .start ["/bin/ls".toList]) := by
  refine ⟨⟨dictSet (defaults gdbOptions) "pid".toList (.int 0), by decide +kernel, by decide +kernel⟩,
    ⟨dictSet (defaults gdbOptions) "pid".toList (.int 0), by decide +kernel, by decide +kernel⟩⟩

/-- A number with a zero in front is not read as people mean it: `--pid 010` attaches process 8, `--pid 09` is an error. -/
theorem C139_octal_refuted : (∃ v, gdbParse cmdEnv ["--pid".toList, "010".toList] = .ok v [] ∧ tracedBy v [] = .attach 8) ∧
    gdbParse cmdEnv ["--pid".toList, "09".toList] = .exit 2 := by
  refine ⟨⟨dictSet (defaults gdbOptions) "pid".toList (.int 8), by decide +kernel, by decide +kernel⟩, by decide +kernel⟩

/-- An empty name after `--output` is no name: all goes to the standard error output. -/
theorem C139_output_refuted : ∃ v, straceParse cmdEnv ["--output=".toList, "ls".toList] = .ok v ["/bin/ls".toList] ∧ textOf v "output" = some [] ∧ logFile v = none := by
  refine ⟨dictSet (defaults straceOptions) "output".toList (.str []), by decide +kernel, by decide +kernel, by decide +kernel⟩

end PT
