import Verif.Spec.Hexdump
import Verif.Lemmas.Py
import Mathlib.Data.Int.Bitwise
import Mathlib.Data.List.Forall2

namespace PT
open Spec

theorem hexChar_eq : ∀ n, n < 16 → hexDigit n = hexChar n := by decide

theorem pyHexPad_two (b : Byte) : pyHexPad 2 b.val = [hexChar (b.val / 16), hexChar (b.val % 16)] := by
  revert b; decide +kernel

theorem formatHexa_nil : formatHexa [] = [] := rfl

theorem formatHexa_one (b : Byte) : formatHexa [b] = [hexChar (b.val / 16), hexChar (b.val % 16)] := by
  have : formatHexa [b] = pyHexPad 2 b.val ++ [] := by
    unfold formatHexa; simp [List.intercalate]
  rw [this, pyHexPad_two, List.append_nil]

theorem formatHexa_cons (b c : Byte) (bs : Bytes) :
    formatHexa (b :: c :: bs) = hexChar (b.val / 16) :: hexChar (b.val % 16) :: ' ' :: formatHexa (c :: bs) := by
  have : formatHexa (b :: c :: bs) = pyHexPad 2 b.val ++ (' ' :: formatHexa (c :: bs)) := by
    unfold formatHexa; simp [List.intercalate]
  rw [this, pyHexPad_two]; rfl

theorem formatHexa_spec : ∀ bs : Bytes, (formatHexa bs).length = bs.length * 3 - 1 ∧
    (∀ i (h : i < bs.length), (formatHexa bs)[3 * i]? = some (hexChar (bs[i].val / 16)) ∧
      (formatHexa bs)[3 * i + 1]? = some (hexChar (bs[i].val % 16))) ∧
    ∀ j, j < (formatHexa bs).length → j % 3 = 2 → (formatHexa bs)[j]? = some ' ' := by
  intro bs
  induction bs with
  | nil => exact ⟨rfl, fun i h => absurd h (by simp), fun j h => absurd h (by simp [formatHexa_nil])⟩
  | cons b bs ih =>
    cases bs with
    | nil =>
      rw [formatHexa_one]
      refine ⟨rfl, ?_, ?_⟩
      · intro i h
        have : i = 0 := by simp at h; exact h
        subst this
        exact ⟨rfl, rfl⟩
      · intro j h h2
        have h : j < 2 := h
        omega
    | cons c bs =>
      obtain ⟨h1, h2, h3⟩ := ih
      rw [formatHexa_cons]
      refine ⟨by simp only [List.length_cons] at h1 ⊢; omega, ?_, ?_⟩
      · intro i h
        cases i with
        | zero => exact ⟨rfl, rfl⟩
        | succ i =>
          obtain ⟨h4, h5⟩ := h2 i (by simpa using h)
          rw [show 3 * (i + 1) = 3 * i + 1 + 1 + 1 by omega]
          exact ⟨h4, h5⟩
      · intro j hj hj3
        match j, hj, hj3 with
        | 0, _, h => exact absurd h (by decide)
        | 1, _, h => exact absurd h (by decide)
        | 2, _, _ => rfl
        | j + 3, hj, h =>
          exact h3 j (by simpa using hj) (by omega)

theorem hexColumn (width : Nat) (bs : Bytes) : HexColumn width bs (ljust (width * 3 - 1) (formatHexa bs)) := by
  obtain ⟨h1, h2, h3⟩ := formatHexa_spec bs
  unfold ljust
  refine ⟨by rw [List.length_append, List.length_replicate, h1]; omega, ?_, ?_⟩
  · intro i h
    have hlt : 3 * i + 1 < (formatHexa bs).length := by rw [h1]; omega
    rw [List.getElem?_append_left (by omega), List.getElem?_append_left hlt]
    exact h2 i h
  · intro j hj hj2
    by_cases hlt : j < (formatHexa bs).length
    · rw [List.getElem?_append_left hlt]
      refine h3 j hlt ?_
      rw [h1] at hlt
      omega
    · rw [List.getElem?_append_right (by omega), List.getElem?_replicate, if_pos]
      rw [List.length_append, List.length_replicate] at hj
      omega

theorem textColumn (width : Nat) (bs : Bytes) : TextColumn width bs (ljust width (formatAscii bs)) := by
  have hl : (formatAscii bs).length = bs.length := List.length_map _
  unfold ljust
  refine ⟨by rw [List.length_append, List.length_replicate, hl]; omega, ?_, ?_⟩
  · intro i h
    rw [List.getElem?_append_left (by omega)]
    unfold formatAscii
    rw [List.getElem?_map, List.getElem?_eq_getElem h]
    show some (if 32 ≤ bs[i].val ∧ bs[i].val ≤ 126 then Char.ofNat bs[i].val else '.') = some _
    congr 1
    have hiff : (32 ≤ bs[i].val ∧ bs[i].val ≤ 126) ↔ bs[i].val ∈ List.range' 32 95 := by
      rw [List.mem_range'_1]; omega
    by_cases hc : 32 ≤ bs[i].val ∧ bs[i].val ≤ 126
    · rw [if_pos hc, if_pos (hiff.1 hc)]
    · rw [if_neg hc, if_neg (fun h => hc (hiff.2 h))]
  · intro j hj hj2
    rw [List.getElem?_append_right (by omega), List.getElem?_replicate, if_pos]
    rw [List.length_append, List.length_replicate] at hj
    omega

variable {σ : Type} {read : Nat → Nat → Py σ Bytes} {width stop : Nat}

theorem Unreadable.le {a b : Nat} {s t : σ} (h : Unreadable read width stop a s b t) (hw : 0 < width) : a < b := by
  induction h with
  | one lt h => omega
  | more lt h rest ih => omega

theorem Unreadable.cons {a b : Nat} {s t u : σ} {e : Option Nat} (lt : a < stop)
    (h : read a (min (stop - a) width) s = (.error (.ptrace e), t))
    (rest : (a + min (stop - a) width = b ∧ t = u) ∨ Unreadable read width stop (a + min (stop - a) width) t b u) :
    Unreadable read width stop a s b u := by
  rcases rest with ⟨rfl, rfl⟩ | rest
  · exact .one lt h
  · exact .more lt h rest

/-- The loop prints the dump; a pending range is extended by the unreadable rows that follow. -/
theorem hexdumpLoop_dump (a : Arch) (hw : 0 < width) : ∀ (n address : Nat), stop - address ≤ n → ∀ (s t : σ) (outs : List DumpOut),
    (hexdumpLoop a read width stop n address none s = (.ok outs, t) →
      ∃ items, Dump read width stop address s items t ∧ List.Forall₂ (Shown a width) items outs) ∧
    (∀ p q, hexdumpLoop a read width stop n address (some (p, q)) s = (.ok outs, t) →
      q = address → ∃ b u items outs', ((address = b ∧ s = u) ∨ Unreadable read width stop address s b u) ∧ Dump read width stop b u items t ∧
        (∀ c d, items.head? ≠ some (.gap c d)) ∧ outs = .unreadable (formatAddressRange a p b) :: outs' ∧
        List.Forall₂ (Shown a width) items outs') := by
  intro n
  induction n with
  | zero =>
    intro address hn s t outs
    have hle : ¬ address < stop := by omega
    constructor
    · intro h
      simp only [hexdumpLoop] at h; rw [if_neg hle] at h
      cases h
      exact ⟨[], .done s (by omega), .nil⟩
    · intro p q h hq
      simp only [hexdumpLoop] at h; rw [if_neg hle] at h
      cases h
      subst hq
      exact ⟨q, s, [], [], .inl ⟨rfl, rfl⟩, .done s (by omega), (fun c d h => by cases h), rfl, .nil⟩
  | succ n ih =>
    intro address hn s t outs
    by_cases hlt : address < stop
    · have hgo := hlt
      have ih' := ih (address + min (stop - address) width) (by omega)
      -- a row which is read
      have good : ∀ (pend : Option (Nat × Nat)) (memory : Bytes) (s' : σ),
          read address (min (stop - address) width) s = (.ok memory, s') →
          hexdumpLoop a read width stop (n + 1) address pend s = (.ok outs, t) →
          ∃ items rest, Dump read width stop address s (.row address memory :: items) t ∧
            outs = readErrorText a pend ++ rest ∧ List.Forall₂ (Shown a width) (.row address memory :: items) rest := by
        intro pend memory s' hr h
        simp only [hexdumpLoop] at h; rw [if_pos hgo] at h
        simp only [hr] at h
        obtain ⟨rest, u, h1, h2⟩ := Py.ok_of_bind h
        cases h2
        obtain ⟨items, hd, hf⟩ := (ih' s' t rest).1 h1
        exact ⟨items, _, .row hlt hr hd, rfl, .cons (.row (hexColumn _ _) (textColumn _ _)) hf⟩
      -- a row which cannot be read
      have bad : ∀ (pend : Option (Nat × Nat)) (e : Option Nat) (s' : σ) (p : Nat),
          (pend = none ∧ p = address ∨ ∃ q, pend = some (p, q)) →
          read address (min (stop - address) width) s = (.error (.ptrace e), s') →
          hexdumpLoop a read width stop (n + 1) address pend s = (.ok outs, t) →
          ∃ b u items outs', Unreadable read width stop address s b u ∧ Dump read width stop b u items t ∧
            (∀ c d, items.head? ≠ some (.gap c d)) ∧ outs = .unreadable (formatAddressRange a p b) :: outs' ∧
            List.Forall₂ (Shown a width) items outs' := by
        intro pend e s' p hp hr h
        simp only [hexdumpLoop] at h; rw [if_pos hgo] at h
        simp only [hr] at h
        have h : hexdumpLoop a read width stop n (address + min (stop - address) width)
            (some (p, address + min (stop - address) width)) s' = (.ok outs, t) := by
          rcases hp with ⟨rfl, rfl⟩ | ⟨q, rfl⟩ <;> exact h
        obtain ⟨b, u, items, outs', h1, h2, h3, h4, h5⟩ := (ih' s' t outs).2 _ _ h rfl
        exact ⟨b, u, items, outs', Unreadable.cons hlt hr h1, h2, h3, h4, h5⟩
      have other : ∀ (pend : Option (Nat × Nat)) (e : Exc) (s' : σ), (∀ en, e ≠ .ptrace en) →
          read address (min (stop - address) width) s = (.error e, s') →
          hexdumpLoop a read width stop (n + 1) address pend s ≠ (.ok outs, t) := by
        intro pend e s' he hr h
        simp only [hexdumpLoop] at h; rw [if_pos hgo] at h
        simp only [hr] at h
        cases e <;> first | (exact he _ rfl) | (cases h)
      rcases hr : read address (min (stop - address) width) s with ⟨_ | _, s'⟩
      · rename_i e
        by_cases he : ∃ en, e = .ptrace en
        · obtain ⟨en, rfl⟩ := he
          constructor
          · intro h
            obtain ⟨b, u, items, outs', h1, h2, h3, h4, h5⟩ := bad none en s' address (.inl ⟨rfl, rfl⟩) hr h
            subst h4
            exact ⟨_, .gap h1 h3 h2, .cons (.gap _ _) h5⟩
          · intro p q h _
            obtain ⟨b, u, items, outs', h1, h2⟩ := bad (some (p, q)) en s' p (.inr ⟨q, rfl⟩) hr h
            exact ⟨b, u, items, outs', .inr h1, h2⟩
        · have he : ∀ en, e ≠ .ptrace en := fun en hx => he ⟨en, hx⟩
          exact ⟨fun h => absurd h (other none e s' he hr), fun p q h _ => absurd h (other _ e s' he hr)⟩
      · rename_i memory
        constructor
        · intro h
          obtain ⟨items, rest, h1, h2, h3⟩ := good none memory s' hr h
          subst h2
          exact ⟨_, h1, h3⟩
        · intro p q h hq
          obtain ⟨items, rest, h1, h2, h3⟩ := good (some (p, q)) memory s' hr h
          exact ⟨address, s, _, rest, .inl ⟨rfl, rfl⟩, h1, (fun c d h => by cases h), (by subst hq; exact h2), h3⟩
    · constructor
      · intro h
        simp only [hexdumpLoop] at h; rw [if_neg hlt] at h
        cases h
        exact ⟨[], .done s (by omega), .nil⟩
      · intro p q h hq
        simp only [hexdumpLoop] at h; rw [if_neg hlt] at h
        cases h
        subst hq
        exact ⟨q, s, [], [], .inl ⟨rfl, rfl⟩, .done s (by omega), (fun c d h => by cases h), rfl, .nil⟩

theorem Unreadable.stop_le {a b : Nat} {s t : σ} (h : Unreadable read width stop a s b t) : b ≤ stop := by
  induction h with
  | one lt h => omega
  | more lt h rest ih => exact ih

theorem Tiles.le {a b : Nat} {rs : List (Nat × Nat)} (h : Tiles a rs b) : a ≤ b := by
  induction h with
  | nil => exact Nat.le_refl _
  | cons lt h ih => omega

/-- Tiles: every address in the range lies in exactly one of them. -/
theorem Tiles.unique {a b : Nat} {rs : List (Nat × Nat)} (h : Tiles a rs b) (x : Nat) (h1 : a ≤ x) (h2 : x < b) :
    ∃ (i p q : Nat), rs[i]? = some (p, q) ∧ p ≤ x ∧ x < q ∧ ∀ (j p' q' : Nat), rs[j]? = some (p', q') → p' ≤ x → x < q' → j = i := by
  have low : ∀ {a b : Nat} {rs : List (Nat × Nat)}, Tiles a rs b → ∀ (j p q : Nat), rs[j]? = some (p, q) → a ≤ p := by
    intro a b rs h
    induction h with
    | nil => intro j p q hj; cases hj
    | cons lt h ih =>
      intro j p q hj
      cases j with
      | zero => cases hj; exact Nat.le_refl _
      | succ j => have := ih j p q hj; omega
  induction h with
  | nil => omega
  | @cons a b c rs lt h ih =>
    by_cases hx : x < b
    · refine ⟨0, a, b, rfl, h1, hx, ?_⟩
      intro j p' q' hj hp hq
      cases j with
      | zero => rfl
      | succ j => have := low h j p' q' hj; omega
    · obtain ⟨i, p, q, h3, h4, h5, h6⟩ := ih (by omega) h2
      refine ⟨i + 1, p, q, h3, h4, h5, ?_⟩
      intro j p' q' hj hp hq
      cases j with
      | zero => cases hj; omega
      | succ j => rw [h6 j p' q' hj hp hq]

/-- Something true of every successful read, in states satisfying an invariant. -/
theorem Dump.rows {inv : σ → Prop} {P : Nat → Bytes → Prop}
    (hi : ∀ {a n s r t}, inv s → read a n s = (r, t) → inv t) (hp : ∀ a n s bs t, inv s → read a n s = (.ok bs, t) → P a bs)
    {a : Nat} {s t : σ} {items : List Item} (h : Dump read width stop a s items t) (hs : inv s) :
    ∀ address bytes, Item.row address bytes ∈ items → P address bytes := by
  have hu : ∀ {a b : Nat} {s t : σ}, Unreadable read width stop a s b t → inv s → inv t := by
    intro a b s t h
    induction h with
    | one lt h => exact fun hs => hi hs h
    | more lt h rest ih => exact fun hs => ih (hi hs h)
  induction h with
  | done s h => intro _ _ hm; cases hm
  | row lt hr rest ih =>
    intro address bytes hm
    rcases List.mem_cons.1 hm with hm | hm
    · cases hm; exact hp _ _ _ _ _ hs hr
    · exact ih (hi hs hr) _ _ hm
  | gap hu' hm' rest ih =>
    intro address bytes hm
    rcases List.mem_cons.1 hm with hm | hm
    · cases hm
    · exact ih (hu hu' hs) _ _ hm

/-- `Dump.tiles` with an invariant. -/
theorem Dump.tiles' {inv : σ → Prop} (hi : ∀ {a n s r t}, inv s → read a n s = (r, t) → inv t) (hw : 0 < width)
    (full : ∀ a n s bs t, inv s → read a n s = (.ok bs, t) → bs.length = n)
    {a : Nat} {s t : σ} {items : List Item} (h : Dump read width stop a s items t) (ha : a ≤ stop) (hs : inv s) :
    Tiles a (items.map Item.extent) stop := by
  have hu : ∀ {a b : Nat} {s t : σ}, Unreadable read width stop a s b t → inv s → inv t := by
    intro a b s t h
    induction h with
    | one lt h => exact fun hs => hi hs h
    | more lt h rest ih => exact fun hs => ih (hi hs h)
  induction h with
  | done s h =>
    have := Nat.le_antisymm ha h
    subst this
    exact .nil _
  | row lt hr rest ih =>
    have hl := full _ _ _ _ _ hs hr
    have := ih (by omega) (hi hs hr)
    show Tiles _ ((_, _ + _) :: _) _
    rw [hl]
    exact .cons (by omega) this
  | gap hu' hm rest ih =>
    exact .cons (Unreadable.le hu' hw) (ih (Unreadable.stop_le hu') (hu hu' hs))

/-- The loop returns when reads raise nothing but `PtraceError`. -/
theorem hexdumpLoop_returns (a : Arch) (hw : 0 < width) (only : ∀ x n s e t, read x n s = (.error e, t) → ∃ en, e = .ptrace en) :
    ∀ (n address : Nat), stop - address ≤ n → ∀ (pend : Option (Nat × Nat)) (s : σ),
    ∃ outs t, hexdumpLoop a read width stop n address pend s = (.ok outs, t) := by
  intro n
  induction n with
  | zero =>
    intro address hn pend s
    simp only [hexdumpLoop]; rw [if_neg (by omega)]
    exact ⟨_, _, rfl⟩
  | succ n ih =>
    intro address hn pend s
    by_cases hgo : address < stop
    · simp only [hexdumpLoop]; rw [if_pos hgo]
      rcases hr : read address (min (stop - address) width) s with ⟨e | memory, s'⟩
      · obtain ⟨en, rfl⟩ := only _ _ _ _ _ hr
        simp only [hr]; exact ih (address + min (stop - address) width) (by omega) _ s'
      · obtain ⟨rest, t, h⟩ := ih (address + min (stop - address) width) (by omega) none s'
        exact ⟨_, t, by simp only [hr]; rw [Py.run_bind_ok h]; rfl⟩
    · simp only [hexdumpLoop]; rw [if_neg hgo]
      exact ⟨_, _, rfl⟩

theorem hexdumpWidth_pos (a : Arch) (terminal : Nat) : 0 < hexdumpWidth a terminal := by
  unfold hexdumpWidth
  generalize Int.fdiv _ _ = x
  omega

end PT
