import Verif.Lemmas.Proc2

namespace PT
open Spec

/-- Where the path of a line starts: after the digits of the inode. -/
def pathOf (rest : Str) : Option Str :=
  match rest with
  | ' ' :: rest => some ((rest.dropWhile (· = ' ')).takeWhile (· ≠ '\n'))
  | _ => none

theorem parseMapLine_head {k : KMap} {t rest : Str} (h : MapHead k t) (hr : ∀ c, rest.head? = some c → isDec c = false) :
    parseMapLine (t ++ rest) = some
      { start := k.start, stop := k.stop, permissions := k.perms, offset := k.offset,
        major := k.major, minor := k.minor, inode := k.inode, pathname := pathOf rest } := by
  obtain ⟨hlen, hnl, a, b, c, d, e, f, ha, hb, hc, hd, he, hf, hdl, hel, rfl⟩ := h
  obtain ⟨p1, p2, p3, p4, hp⟩ : ∃ p1 p2 p3 p4, k.perms = [p1, p2, p3, p4] := by
    match hq : k.perms, hlen with
    | [p1, p2, p3, p4], _ => exact ⟨p1, p2, p3, p4, rfl⟩
  rw [hp] at hnl
  unfold parseMapLine
  rw [hp]
  simp only [List.append_assoc, List.cons_append, List.nil_append]
  rw [takeHex_found (by decide) ha]
  simp only []
  rw [takeHex_found (by decide) hb]
  simp only []
  rw [if_neg hnl, takeHex_found (by decide) hc]
  simp only []
  rw [takeHex_found (by decide) hd]
  simp only []
  rw [takeHex_found (by decide) he]
  simp only []
  obtain ⟨hfne, hfd⟩ := decNumber_iff.1 ⟨_, hf⟩
  obtain ⟨h1, h2⟩ := takeWhile_run hfd hr
  rw [if_neg (by omega), h1, h2, if_neg hfne, (hexNumber_some ha).2.2, (hexNumber_some hb).2.2, (hexNumber_some hc).2.2,
    (hexNumber_some hd).2.2, (hexNumber_some he).2.2, natOfDec_eq hf]
  rfl

theorem takeHex_some {sep : Char} {t a rest : Str} (h : takeHex sep t = some (a, rest)) :
    t = a ++ sep :: rest ∧ a ≠ [] ∧ ∀ c ∈ a, isHex c = true := by
  unfold takeHex at h
  have h1 := List.takeWhile_append_dropWhile (p := isHex) (l := t)
  have h2 : ∀ c ∈ t.takeWhile isHex, isHex c = true := fun c hc => mem_takeWhile hc
  generalize t.takeWhile isHex = x at *
  generalize t.dropWhile isHex = y at *
  cases x with
  | nil => cases h
  | cons d x =>
    cases y with
    | nil => cases h
    | cons c y =>
      simp only at h
      split at h
      · next hc =>
        cases h
        exact ⟨by rw [← h1, hc], by simp, h2⟩
      · cases h

theorem hexNumber_total {a : Str} (hne : a ≠ []) (h : ∀ c ∈ a, isHex c = true) : ∃ n, hexNumber a = some n := by
  unfold hexNumber
  rw [if_neg hne]
  have key : ∀ (a : Str) (m : Nat), (∀ c ∈ a, isHex c = true) → ∃ n, a.foldl (fun acc c => match acc, hexVal c with
      | some a, some d => some (16 * a + d)
      | _, _ => none) (some m) = some n := by
    intro a
    induction a with
    | nil => intro m _; exact ⟨m, rfl⟩
    | cons c a ih =>
      intro m h
      have hc := h c (by simp)
      have : ∃ d, hexVal c = some d := by
        unfold isHex isDec at hc
        unfold hexVal
        by_cases h1 : '0' ≤ c ∧ c ≤ '9'
        · rw [if_pos h1]; exact ⟨_, rfl⟩
        · rw [if_neg h1]
          by_cases h2 : 'a' ≤ c ∧ c ≤ 'f'
          · rw [if_pos h2]; exact ⟨_, rfl⟩
          · simp [h1, h2] at hc
      obtain ⟨d, hd⟩ := this
      rw [List.foldl_cons, hd]
      exact ih _ (fun c hc => h c (List.mem_cons_of_mem _ hc))
  exact key a 0 h

/-- The regular expression matches exactly the lines that start like a line of the kernel, and the fields are the
ones that are written there. -/
theorem parseMapLine_some {line : Str} {m : Mapping} (h : parseMapLine line = some m) :
    ∃ k t rest, MapHead k t ∧ line = t ++ rest ∧ (∀ c, rest.head? = some c → isDec c = false) := by
  unfold parseMapLine at h
  cases h1 : takeHex '-' line with
  | none => rw [h1] at h; cases h
  | some x =>
  obtain ⟨a, t⟩ := x
  rw [h1] at h; simp only at h
  obtain ⟨rfl, ha, ha'⟩ := takeHex_some h1
  cases h2 : takeHex ' ' t with
  | none => rw [h2] at h; cases h
  | some x =>
  obtain ⟨b, t⟩ := x
  rw [h2] at h; simp only at h
  obtain ⟨rfl, hb, hb'⟩ := takeHex_some h2
  split at h
  · next p1 p2 p3 p4 t =>
    by_cases hp : '\n' ∈ [p1, p2, p3, p4]
    · rw [if_pos hp] at h; cases h
    rw [if_neg hp] at h
    cases h3 : takeHex ' ' t with
    | none => rw [h3] at h; cases h
    | some x =>
    obtain ⟨c, t⟩ := x
    rw [h3] at h; simp only at h
    obtain ⟨rfl, hc, hc'⟩ := takeHex_some h3
    cases h4 : takeHex ':' t with
    | none => rw [h4] at h; cases h
    | some x =>
    obtain ⟨d, t⟩ := x
    rw [h4] at h; simp only at h
    obtain ⟨rfl, hd, hd'⟩ := takeHex_some h4
    cases h5 : takeHex ' ' t with
    | none => rw [h5] at h; cases h
    | some x =>
    obtain ⟨e, t⟩ := x
    rw [h5] at h; simp only at h
    obtain ⟨rfl, he, he'⟩ := takeHex_some h5
    by_cases hl : (d.length ≠ 2 ∧ d.length ≠ 3) ∨ (e.length ≠ 2 ∧ e.length ≠ 3)
    · rw [if_pos hl] at h; cases h
    rw [if_neg hl] at h
    by_cases hf : t.takeWhile isDec = []
    · rw [if_pos hf] at h; cases h
    obtain ⟨na, hna⟩ := hexNumber_total ha ha'
    obtain ⟨nb, hnb⟩ := hexNumber_total hb hb'
    obtain ⟨nc, hnc⟩ := hexNumber_total hc hc'
    obtain ⟨nd, hnd⟩ := hexNumber_total hd hd'
    obtain ⟨ne, hne⟩ := hexNumber_total he he'
    obtain ⟨nf, hnf⟩ := decNumber_iff.2 ⟨hf, fun c hc => mem_takeWhile hc⟩
    refine ⟨⟨na, nb, [p1, p2, p3, p4], nc, nd, ne, nf, none⟩, _, t.dropWhile isDec,
      ⟨rfl, hp, a, b, c, d, e, t.takeWhile isDec, hna, hnb, hnc, hnd, hne, hnf, by omega, by omega, rfl⟩, ?_, ?_⟩
    · simp [List.takeWhile_append_dropWhile]
    · intro c hc
      obtain ⟨_, _, _, h'⟩ := dropWhile_split isDec t
      exact h' c hc
  · cases h

theorem rstripped_iff {space : Char → Bool} {t y : Str} : RStripped space t y ↔ rstrip space t = y := by
  constructor
  · rintro ⟨⟨b, rfl, hb⟩, hy⟩
    unfold rstrip
    rw [List.reverse_append, dropWhile_prefix space _ _ (by simpa using hb)]
    · simp
    · intro c hc; rw [List.head?_reverse] at hc; exact hy c hc
  · rintro rfl
    obtain ⟨a, h1, h2, h3⟩ := dropWhile_split space t.reverse
    refine ⟨⟨a.reverse, ?_, by simpa using h2⟩, ?_⟩
    · have := congrArg List.reverse h1
      simp only [List.reverse_reverse, List.reverse_append] at this
      exact this
    · intro c hc
      unfold rstrip at hc
      rw [List.getLast?_reverse] at hc
      exact h3 c hc

end PT
