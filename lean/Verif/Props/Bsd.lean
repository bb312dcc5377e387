import Verif.Model.Bsd
import Verif.Lemmas.CString
import Verif.Lemmas.Py
import Verif.Spec.Memory
import Verif.Lemmas.Memory2

/-! C116: memory of the tracee on FreeBSD and OpenBSD. -/

namespace PT
open Spec

/-- The kernel never moves a part of a block: it moves all of it or fails. -/
def WholeBlocks (k : BsdKernel) : Prop := ∀ log d n, k.reply log d = .count n → d.len ≤ n

theorem ptraceIo_ok {k : BsdKernel} {d : IoDesc} {s t : BsdMem} {n : Nat} (h : ptraceIo k d s = (.ok n, t)) :
    ∃ m, k.reply s.log d = .count m ∧ n = min m d.len ∧ t = { s with log := d :: s.log } := by
  unfold ptraceIo at h
  split at h
  · injection h with h _; cases h
  · rename_i m hm
    injection h with h1 h2
    injection h1 with h1
    exact ⟨m, hm, h1.symm, h2.symm⟩

theorem ptraceIo_error {k : BsdKernel} {d : IoDesc} {s t : BsdMem} {x : Exc} (h : ptraceIo k d s = (.error x, t)) :
    ∃ e, k.reply s.log d = .err e ∧ x = .ptrace (some e) ∧ t = { s with log := d :: s.log } := by
  unfold ptraceIo at h
  split at h
  · rename_i e he
    injection h with h1 h2
    injection h1 with h1
    exact ⟨e, he, h1.symm, h2.symm⟩
  · injection h with h _; cases h

/-- A kernel that moves at most two bytes of a block, as at the end of a mapping. -/
def twoBytes : BsdKernel := ⟨⟨true, false⟩, fun _ _ => .count 2⟩

/-- A kernel that moves whole blocks. -/
def allBytes : BsdKernel := ⟨⟨true, false⟩, fun _ d => .count d.len⟩

theorem allBytes_whole : WholeBlocks allBytes := by
  intro log d n h
  injection h with h
  omega

/-- Every byte of memory is `a`. -/
def allA : BsdMem := ⟨fun _ => 97, []⟩

/-- C116. Reading a block is one request. The result has the length asked for; it begins with the bytes of memory the kernel moved, the
rest is zero. Memory does not change. -/
theorem C116_read (k : BsdKernel) (address size : Nat) (s t : BsdMem) (data : Bytes) (h : bsdReadBytes k address size s = (.ok data, t)) :
    t.mem = s.mem ∧ (∃ d : IoDesc, t.log = d :: s.log ∧ d.write = false ∧ d.len = size) ∧ data.length = size ∧
    ∃ m, k.reply s.log ⟨false, address % 2 ^ (8 * k.arch.W), size⟩ = .count m ∧
      ∀ i (hi : i < data.length), data[i] = if i < m then s.mem (address % 2 ^ (8 * k.arch.W) + i) else 0 := by
  obtain ⟨n, u, h1, h2⟩ := Py.ok_of_bind h
  obtain ⟨m, hm, hn, hu⟩ := ptraceIo_ok h1
  injection h2 with h2 h3
  injection h2 with h2
  subst h3; subst hu
  simp only at h2 hn
  have hlen : data.length = size := by rw [← h2]; simp; omega
  refine ⟨rfl, ⟨_, rfl, rfl, rfl⟩, hlen, m, hm, ?_⟩
  intro i hi
  subst h2
  by_cases him : i < n
  · rw [List.getElem_append_left (by simpa using him), bytesAt_getElem, if_pos (by omega)]
    rfl
  · rw [List.getElem_append_right (by simpa using him), List.getElem_replicate, if_neg (by omega)]

example := C116_read twoBytes 5 3 allA ⟨fun _ => 97, [⟨false, 5, 3⟩]⟩ [97, 97, 0] rfl

/-- C116. A read that fails raises the error of the kernel, and changes nothing. -/
theorem C116_error (k : BsdKernel) (address size : Nat) (s t : BsdMem) (x : Exc) (h : bsdReadBytes k address size s = (.error x, t)) :
    t.mem = s.mem ∧ ∃ e, k.reply s.log ⟨false, address % 2 ^ (8 * k.arch.W), size⟩ = .err e ∧ x = .ptrace (some e) := by
  rcases Py.error_of_bind h with h | ⟨n, u, h1, h2⟩
  · obtain ⟨e, he, hx, ht⟩ := ptraceIo_error h
    exact ⟨by rw [ht], e, he, hx⟩
  · injection h2 with h2 _; cases h2

example := C116_error ⟨⟨true, false⟩, fun _ _ => .err 14⟩ 5 3 allA ⟨fun _ => 97, [⟨false, 5, 3⟩]⟩ (.ptrace (some 14)) rfl

/-- C116. If the kernel moves whole blocks and the address fits a pointer, the bytes of memory are read. -/
theorem C116_read_partial (k : BsdKernel) (hk : WholeBlocks k) (address size : Nat) (ha : address < 2 ^ (8 * k.arch.W)) (s t : BsdMem) (data : Bytes)
    (h : bsdReadBytes k address size s = (.ok data, t)) : IsRange s.mem address size data := by
  obtain ⟨_, _, hl, m, hm, hd⟩ := C116_read k address size s t data h
  have := hk _ _ _ hm
  simp only at this
  refine ⟨hl, fun i hi => ?_⟩
  rw [hd i hi, if_pos (by omega), Nat.mod_eq_of_lt ha]

example := C116_read_partial allBytes allBytes_whole 5 3 (by decide) allA ⟨fun _ => 97, [⟨false, 5, 3⟩]⟩ [97, 97, 97] rfl

/-- C116. What writing a block does: the kernel stores a first part of it; the caller does not learn how much. -/
theorem C116_write (k : BsdKernel) (address : Nat) (bytes : Bytes) (s t : BsdMem) (h : bsdWriteBytes k address bytes s = (.ok (), t)) :
    (∃ d : IoDesc, t.log = d :: s.log ∧ d.write = true ∧ d.len = bytes.length) ∧
    ∃ m, k.reply s.log ⟨true, address % 2 ^ (8 * k.arch.W), bytes.length⟩ = .count m ∧
      Written s.mem (address % 2 ^ (8 * k.arch.W)) (bytes.take m) t.mem := by
  obtain ⟨n, u, h1, h2⟩ := Py.ok_of_bind h
  obtain ⟨m, hm, hn, hu⟩ := ptraceIo_ok h1
  injection h2 with _ h3
  subst h3; subst hu
  refine ⟨⟨_, rfl, rfl, rfl⟩, m, hm, ?_⟩
  have ht : bytes.take n = bytes.take m := by
    simp only at hn
    rw [hn, List.take_eq_take_iff]; omega
  simp only [ht]
  exact ⟨fun i hi => storeBytes_in _ _ _ _ hi, fun x hx => storeBytes_out _ _ _ _ hx⟩

example := C116_write twoBytes 5 [1, 2, 3] allA (bsdWriteBytes twoBytes 5 [1, 2, 3] allA).2 rfl

/-- C116. If the kernel moves whole blocks and the address fits a pointer, exactly these bytes are written. -/
theorem C116_write_partial (k : BsdKernel) (hk : WholeBlocks k) (address : Nat) (bytes : Bytes) (ha : address < 2 ^ (8 * k.arch.W)) (s t : BsdMem)
    (h : bsdWriteBytes k address bytes s = (.ok (), t)) : Written s.mem address bytes t.mem := by
  obtain ⟨_, m, hm, hw⟩ := C116_write k address bytes s t h
  have := hk _ _ _ hm
  simp only at this
  rwa [List.take_of_length_le this, Nat.mod_eq_of_lt ha] at hw

example := C116_write_partial allBytes allBytes_whole 5 [1, 2, 3] (by decide) allA (bsdWriteBytes allBytes 5 [1, 2, 3] allA).2 rfl

/-- C116. What was written is read back, and other addresses read as before. -/
theorem C116_roundtrip_partial (k : BsdKernel) (hk : WholeBlocks k) (address : Nat) (bytes : Bytes) (ha : address < 2 ^ (8 * k.arch.W)) (s t u : BsdMem)
    (data : Bytes) (h : bsdWriteBytes k address bytes s = (.ok (), t)) (h2 : bsdReadBytes k address bytes.length t = (.ok data, u)) : data = bytes := by
  have hw := C116_write_partial k hk address bytes ha s t h
  have hr := C116_read_partial k hk address bytes.length ha t u data h2
  refine List.ext_getElem hr.1 fun i h3 h4 => ?_
  rw [hr.2 i h3, hw.1 i h4]

example := C116_roundtrip_partial allBytes allBytes_whole 5 [1, 2, 3] (by decide) allA (bsdWriteBytes allBytes 5 [1, 2, 3] allA).2
  (bsdReadBytes allBytes 5 3 (bsdWriteBytes allBytes 5 [1, 2, 3] allA).2).2 [1, 2, 3] rfl (Prod.ext (by decide) rfl)

theorem bsdLoop_run (k : BsdKernel) (hk : WholeBlocks k) (m : Nat → Byte) (a lim chunk : Nat) (ha : a + lim + chunk ≤ 2 ^ (8 * k.arch.W)) :
    ∀ (fuel size : Nat) (string : Bytes) (s t : BsdMem) (r : Bytes) (b : Bool), s.mem = m → string.length = size → (size = 0 ∨ size < lim) →
    (∀ i (h : i < string.length), string[i] = m (a + i) ∧ m (a + i) ≠ 0) → 0 < chunk →
    bsdReadCStringLoop k lim chunk fuel (a + size) size string s = (.ok (r, b), t) →
    t.mem = m ∧ r.length ≤ lim ∧ (∀ i (h : i < r.length), r[i] = m (a + i) ∧ m (a + i) ≠ 0) ∧ (b = false → m (a + r.length) = 0) := by
  intro fuel
  induction fuel with
  | zero => intro size string s t r b _ _ _ _ _ h; injection h with h _; cases h
  | succ fuel ih =>
    intro size string s t r b hs hl hsz hstr hc h
    obtain ⟨data, u, h1, h2⟩ := Py.ok_of_bind h
    have hu := (C116_read k _ _ s u data h1).1
    have hr := C116_read_partial k hk (a + size) chunk (by omega) s u data h1
    rw [hs] at hu hr
    -- the part of the chunk before a NUL
    obtain ⟨cut, hcut⟩ : ∃ cut, cut = (match findNul data with
      | some p => data.take p
      | none => data) := ⟨_, rfl⟩
    have h2 : (if lim ≤ size + chunk then Py.pure (string ++ cut.take (lim - size), true)
      else if (findNul data).isSome then Py.pure (string ++ cut, false)
      else bsdReadCStringLoop k lim chunk fuel (a + size + chunk) (size + chunk) (string ++ cut) : Py BsdMem (Bytes × Bool)) u = (.ok (r, b), t) := by
      rw [hcut]
      cases hf : findNul data <;> simp only [hf] at h2 ⊢ <;> exact h2
    have hcutp : cut <+: data := by
      rw [hcut]; split
      · exact List.take_prefix _ _
      · exact List.prefix_refl _
    have hnn : ∀ i (hi : i < cut.length), cut[i] = m (a + size + i) ∧ m (a + size + i) ≠ 0 := by
      intro i hi
      have hd : i < data.length := Nat.lt_of_lt_of_le hi hcutp.length_le
      have he : cut[i] = data[i] := hcutp.getElem hi
      rw [he, ← hr.2 i hd]
      refine ⟨rfl, ?_⟩
      rw [hcut] at hi
      split at hi
      · rename_i p hp
        obtain ⟨_, _, hp3⟩ := findNul_some hp
        exact hp3 i (by simp only [List.length_take] at hi; omega)
      · rename_i hp
        exact findNul_none hp i hd
    have hall : ∀ (tail : Bytes), tail <+: cut → ∀ i (h : i < (string ++ tail).length), (string ++ tail)[i] = m (a + i) ∧ m (a + i) ≠ 0 := by
      intro tail htail i hi
      by_cases h : i < string.length
      · rw [List.getElem_append_left h]; exact hstr i h
      · rw [List.getElem_append_right (by omega)]
        have h3 : i - string.length < tail.length := by simp only [List.length_append] at hi; omega
        have := hnn (i - string.length) (Nat.lt_of_lt_of_le h3 htail.length_le)
        rw [htail.getElem h3]
        rw [show a + size + (i - string.length) = a + i by omega] at this
        exact this
    have hcl : cut.length ≤ chunk := by rw [← hr.1]; exact hcutp.length_le
    by_cases hle : lim ≤ size + chunk
    · simp only [hle, if_true] at h2
      injection h2 with h2 h3
      injection h2 with h2
      injection h2 with h2 h4
      subst h2; subst h4; subst h3
      exact ⟨hu, by simp only [List.length_append, List.length_take]; omega, hall _ (List.take_prefix _ _), (fun h => by cases h)⟩
    · simp only [hle, if_false] at h2
      cases hp : findNul data with
      | some p =>
        simp only [hp] at hcut
        simp only [hp, Option.isSome_some, if_true] at h2
        injection h2 with h2 h3
        injection h2 with h2
        injection h2 with h2 h4
        obtain ⟨hp1, hp2, _⟩ := findNul_some hp
        subst h2; subst h3
        refine ⟨hu, ?_, hall _ (List.prefix_refl _), fun _ => ?_⟩
        · simp only [List.length_append]; omega
        · have : cut.length = p := by rw [hcut, List.length_take]; omega
          rw [List.length_append, this, hl, ← Nat.add_assoc, ← hr.2 p hp1]
          exact hp2
      | none =>
        simp only [hp] at hcut
        simp only [hp, Option.isSome_none, Bool.false_eq_true, if_false] at h2
        rw [Nat.add_assoc a size chunk] at h2
        have hcl2 : cut.length = chunk := by rw [hcut]; exact hr.1
        exact ih (size + chunk) (string ++ cut) u t r b hu (by rw [List.length_append]; omega) (Or.inr (by omega)) (hall _ (List.prefix_refl _)) hc h2

/-- C116. If the kernel moves whole blocks and no address overflows: a string not reported as cut is the string in memory, and any
result is a beginning of it, of at most the size asked for. -/
theorem C116_string_partial (k : BsdKernel) (hk : WholeBlocks k) (fuel a lim chunk : Nat) (hc : 0 < chunk) (ha : a + lim + chunk ≤ 2 ^ (8 * k.arch.W))
    (s t : BsdMem) (r : Bytes) (b : Bool) (h : bsdReadCString k fuel a lim chunk s = (.ok (r, b), t)) :
    t.mem = s.mem ∧ r.length ≤ lim ∧ (b = false → IsCString s.mem a r) ∧ ∀ w, IsCString s.mem a w → r <+: w := by
  obtain ⟨h1, h2, h3, h4⟩ := bsdLoop_run k hk s.mem a lim chunk ha fuel 0 [] s t r b rfl rfl (Or.inl rfl) (fun i hi => absurd hi (by simp)) hc h
  refine ⟨h1, h2, fun hb => ⟨h3, h4 hb⟩, fun w hw => ?_⟩
  have hle : r.length ≤ w.length := by
    by_contra hn
    exact (h3 w.length (by omega)).2 hw.2
  rw [List.prefix_iff_eq_take]
  refine List.ext_getElem (by simp; omega) fun i h5 h6 => ?_
  rw [(h3 i h5).1, List.getElem_take]
  simp only [List.length_take] at h6
  exact (hw.1 i (by omega)).1.symm

example : bsdReadBytes allBytes 5 3 allA = (.ok [97, 97, 97], ⟨fun _ => 97, [⟨false, 5, 3⟩]⟩) := rfl
example : (bsdReadCString allBytes 9 5 100 4 ⟨fun x => if x = 11 then 0 else 97, []⟩).1 = .ok ([97, 97, 97, 97, 97, 97], false) := by decide

/-- C116. When the kernel moves a part of a block, the rest of what is returned is not memory. -/
theorem C116_read_refuted : ∃ (k : BsdKernel) (address size : Nat) (s t : BsdMem) (data : Bytes),
    bsdReadBytes k address size s = (.ok data, t) ∧ address < 2 ^ 32 ∧ ¬ IsRange s.mem address size data := by
  refine ⟨twoBytes, 8, 4, allA, ⟨fun _ => 97, [⟨false, 8, 4⟩]⟩, [97, 97, 0, 0], rfl, by decide, ?_⟩
  intro h
  exact absurd (h.2 2 (by decide)) (by decide)

/-- C116. When the kernel moves a part of a block, a write returns normally with the rest not written. -/
theorem C116_write_refuted : ∃ (k : BsdKernel) (address : Nat) (bytes : Bytes) (s t : BsdMem),
    bsdWriteBytes k address bytes s = (.ok (), t) ∧ address < 2 ^ 32 ∧ ¬ Written s.mem address bytes t.mem := by
  refine ⟨twoBytes, 8, [1, 2, 3, 4], allA, (bsdWriteBytes twoBytes 8 [1, 2, 3, 4] allA).2, Prod.ext rfl rfl, by decide, ?_⟩
  intro h
  exact absurd (h.1 2 (by decide)) (by decide)

/-- C116. A string that has no end in the readable memory is reported as complete: the zeros of the buffer end it. -/
theorem C116_string_refuted : ∃ (k : BsdKernel) (s t : BsdMem) (r : Bytes),
    bsdReadCString k 9 8 100 16 s = (.ok (r, false), t) ∧ r ≠ [] ∧ ∀ x, s.mem x ≠ 0 :=
  ⟨twoBytes, allA, (bsdReadCString twoBytes 9 8 100 16 allA).2, [97, 97], Prod.ext (by decide) rfl, by decide, by intro x; show (97 : Byte) ≠ 0; decide⟩

/-- C116. An address above the address space is not refused: its lower bits are used. -/
theorem C116_wrap_refuted : ∃ (s : BsdMem), WholeBlocks allBytes ∧ (bsdReadBytes allBytes (2 ^ 64 + 5) 1 s).1 = .ok [s.mem 5] ∧ s.mem 5 ≠ s.mem (2 ^ 64 + 5) :=
  ⟨⟨fun x => if x = 5 then 1 else 2, []⟩, allBytes_whole, by decide +kernel, by decide +kernel⟩

end PT
