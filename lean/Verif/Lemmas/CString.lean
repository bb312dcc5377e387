import Verif.Lemmas.Memory3

namespace PT

theorem findNul_some {d : Bytes} {p : Nat} (h : findNul d = some p) :
    ∃ hp : p < d.length, d[p] = 0 ∧ ∀ i (hi : i < p), d[i]'(by omega) ≠ 0 := by
  unfold findNul at h
  rw [List.findIdx?_eq_some_iff_getElem] at h
  obtain ⟨h1, h2, h3⟩ := h
  refine ⟨h1, by simpa using h2, fun i hi => ?_⟩
  have := h3 i hi
  simpa using this

theorem findNul_none {d : Bytes} (h : findNul d = none) :
    ∀ i (hi : i < d.length), d[i] ≠ 0 := by
  unfold findNul at h
  rw [List.findIdx?_eq_none_iff] at h
  intro i hi
  simpa using h d[i] (List.getElem_mem hi)

/-- `s` is made of the non-zero bytes found at `a`. -/
def NoNul (mem : Nat → Byte) (a n : Nat) : Prop := ∀ i, i < n → mem (a + i) ≠ 0

/-- The chunked reads of this kernel do not skip bytes: an incomplete chunk without NUL at `a` is
followed by an error at the next chunk. -/
def NoSkip (k : Kernel) (mem : Nat → Byte) (chunk : Nat) : Prop :=
  ∀ s a d, s.mem = mem → (readBytes k a chunk s).1 = .ok d → d.length < chunk → (0 : Byte) ∉ d →
    ∀ s', s'.mem = mem → ∃ e, (readBytes k (a + chunk) chunk s').1 = .error e

/-- Outcome of the `readCString` loop when `size` bytes of the string starting at `a` are known. -/
structure CStrRun (m : Nat → Byte) (a lim : Nat) (s : MemSt)
    (r : Except Exc (Bytes × Bool) × MemSt) : Prop where
  mem : r.2.mem = s.mem
  str : ∀ t b, r.1 = .ok (t, b) → t = bytesAt m a t.length ∧ NoNul m a t.length ∧ t.length ≤ lim ∧
    (b = false → m (a + t.length) = 0)

theorem readCStringLoop_run (k : Kernel) (mem : Nat → Byte) (a lim chunk : Nat)
    (hskip : NoSkip k mem chunk) (fuel : Nat) : ∀ (size : Nat) (str : Bytes) (s : MemSt), s.mem = mem →
    size ≤ lim → NoNul mem a str.length → str = bytesAt mem a str.length →
    (str.length = size ∨ ∀ s', s'.mem = mem → ∃ e, (readBytes k (a + size) chunk s').1 = .error e) →
    CStrRun mem a lim s (readCStringLoop k lim chunk fuel (a + size) size str s) := by
  induction fuel with
  | zero =>
    intro size str s hs hsz hnn hstr hlen
    exact ⟨rfl, by intro t b h; cases h⟩
  | succ fuel ih =>
    intro size str s hs hsz hnn hstr hlen
    rw [readCStringLoop]
    have hr := readBytes_readRun k (a + size) chunk s
    cases hrd : readBytes k (a + size) chunk s with
    | mk res s1 =>
      rw [hrd] at hr
      have hm : s1.mem = mem := by rw [← hs]; exact hr.mem
      cases res with
      | error e =>
        rw [Py.bind_eq_error hrd]
        exact ⟨by rw [hm, hs], by intro t b h; cases h⟩
      | ok data =>
        have hlen : str.length = size := by
          rcases hlen with h | h
          · exact h
          · obtain ⟨e, he⟩ := h s hs
            rw [hrd] at he; cases he
        rw [Py.bind_eq_ok hrd]
        obtain ⟨hd1, hd2⟩ := hr.result data rfl
        rw [hs] at hd2
        -- the bytes of the chunk in front of the first NUL
        have hget : ∀ i (hi : i < data.length), data[i] = mem (a + size + i) := by
          intro i hi
          have := (isRange_iff mem (a + size) data.length data).2 hd2
          exact this.2 i hi
        have happ : ∀ n, n ≤ data.length → str ++ data.take n = bytesAt mem a (size + n) := by
          intro n hn
          rw [bytesAt_add, ← hlen, ← hstr]
          congr 1
          rw [hlen]
          apply List.ext_getElem
          · simp; omega
          · intro i h1 h2
            simp only [List.length_take] at h1
            rw [List.getElem_take, hget i (by omega), bytesAt_getElem]
        have hnn2 : ∀ n, n ≤ data.length → (∀ i (hi : i < data.length), i < n → data[i] ≠ 0) →
            NoNul mem a (size + n) := by
          intro n hn h i hi
          by_cases h' : i < size
          · exact hnn i (by omega)
          · have := h (i - size) (by omega) (by omega)
            rw [hget] at this
            have e : a + size + (i - size) = a + i := by omega
            rwa [e] at this
        cases hf : findNul data with
        | some p =>
          obtain ⟨hp1, hp2, hp3⟩ := findNul_some hf
          have hz : mem (a + (size + p)) = 0 := by
            rw [hget] at hp2
            have e : a + size + p = a + (size + p) := by omega
            rwa [e] at hp2
          simp only [Option.isSome_some, if_true]
          by_cases hmx : lim ≤ size + chunk
          · rw [if_pos hmx]
            refine ⟨by rw [← hs] at hm; exact hm, ?_⟩
            intro t b h
            injection h with h; injection h with h h'; subst h; subst h'
            have e : str ++ (data.take p).take (lim - size) = bytesAt mem a (size + min (lim - size) p) := by
              rw [List.take_take, happ _ (by omega)]
            rw [e]
            refine ⟨by simp, ?_, by simp; omega, by intro h; cases h⟩
            rw [bytesAt_length]
            exact hnn2 _ (by omega) (fun i hi h => hp3 i (by omega))
          · rw [if_neg hmx]
            refine ⟨by rw [← hs] at hm; exact hm, ?_⟩
            intro t b h
            injection h with h; injection h with h h'; subst h; subst h'
            rw [happ p (by omega)]
            refine ⟨by simp, ?_, by simp; omega, by intro _; simpa using hz⟩
            rw [bytesAt_length]
            exact hnn2 _ (by omega) (fun i hi h => hp3 i (by omega))
        | none =>
          have hp := findNul_none hf
          have htl : data = data.take data.length := by simp
          simp only [Option.isSome_none, Bool.false_eq_true, if_false]
          by_cases hmx : lim ≤ size + chunk
          · rw [if_pos hmx]
            refine ⟨by rw [← hs] at hm; exact hm, ?_⟩
            intro t b h
            injection h with h; injection h with h h'; subst h; subst h'
            have e : str ++ data.take (lim - size) = bytesAt mem a (size + min (lim - size) data.length) := by
              by_cases hh : lim - size ≤ data.length
              · rw [happ _ hh, Nat.min_eq_left hh]
              · rw [Nat.min_eq_right (by omega), List.take_of_length_le (by omega), ← happ _ (Nat.le_refl _),
                  List.take_length]
            rw [e]
            refine ⟨by simp, ?_, by simp; omega, by intro h; cases h⟩
            rw [bytesAt_length]
            exact hnn2 _ (by omega) (fun i hi h => hp i hi)
          · rw [if_neg hmx]
            have e : str ++ data = bytesAt mem a (size + data.length) := by
              rw [← happ _ (Nat.le_refl _), List.take_length]
            have := ih (size + chunk) (str ++ data) s1 hm (by omega)
              (by rw [List.length_append, hlen]; exact hnn2 _ (Nat.le_refl _) (fun i hi h => hp i hi))
              (by rw [e]; simp) ?_
            · rw [← Nat.add_assoc] at this
              exact ⟨by rw [this.mem, hm, hs], this.str⟩
            · by_cases hfull : data.length = chunk
              · left; simp [hlen, hfull]
              · right
                rw [← Nat.add_assoc]
                refine hskip s (a + size) data hs (by rw [hrd]) (by omega) ?_
                intro hmem
                obtain ⟨i, hi, h⟩ := List.getElem_of_mem hmem
                exact hp i hi h

/-- With fuel for `lim/chunk + 1` iterations the loop ends by itself. -/
theorem readCStringLoop_fuel (k : Kernel) (lim chunk : Nat) (fuel : Nat) :
    ∀ (a size : Nat) (str : Bytes) (s : MemSt), lim ≤ size + fuel * chunk → 0 < fuel →
    (readCStringLoop k lim chunk fuel a size str s).1 ≠ .error .diverge := by
  induction fuel with
  | zero => intro a size str s h h0; omega
  | succ fuel ih =>
    intro a size str s h h0
    rw [readCStringLoop]
    have hr := readBytes_readRun k a chunk s
    cases hrd : readBytes k a chunk s with
    | mk res s1 =>
      rw [hrd] at hr
      cases res with
      | error e =>
        rw [Py.bind_eq_error hrd]
        intro h; injection h with h; subst h
        rcases hr.error _ rfl with ⟨x, h⟩ | ⟨h, _⟩ <;> cases h
      | ok data =>
        rw [Py.bind_eq_ok hrd]
        by_cases hmx : lim ≤ size + chunk
        · rw [if_pos hmx]; intro h; cases h
        · rw [if_neg hmx]
          split
          · intro h; cases h
          · have : 0 < fuel := by
              rcases Nat.eq_zero_or_pos fuel with h' | h'
              · subst h'; omega
              · exact h'
            refine ih _ _ _ _ ?_ this
            rw [Nat.add_mul] at h
            omega

/-- More fuel does not change a result. -/
theorem readCStringLoop_mono (k : Kernel) (lim chunk : Nat) (fuel : Nat) :
    ∀ (more a size : Nat) (str : Bytes) (s : MemSt),
    (readCStringLoop k lim chunk fuel a size str s).1 ≠ .error .diverge →
    readCStringLoop k lim chunk (fuel + more) a size str s = readCStringLoop k lim chunk fuel a size str s := by
  induction fuel with
  | zero => intro more a size str s h; exact absurd rfl h
  | succ fuel ih =>
    intro more a size str s
    rw [show fuel + 1 + more = (fuel + more) + 1 by omega, readCStringLoop, readCStringLoop]
    cases hrd : readBytes k a chunk s with
    | mk res s1 =>
      cases res with
      | error e => intro _; rw [Py.bind_eq_error hrd, Py.bind_eq_error hrd]
      | ok data =>
        rw [Py.bind_eq_ok hrd, Py.bind_eq_ok hrd]
        split
        · intro _; rfl
        · split
          · intro _; rfl
          · intro h; exact ih _ _ _ _ _ h

/-- Every successful read of `chunk` bytes is complete. -/
def FullReads (k : Kernel) (mem : Nat → Byte) (chunk : Nat) : Prop :=
  ∀ s a d, s.mem = mem → (readBytes k a chunk s).1 = .ok d → d.length = chunk

/-- The log of the loop: requests for the chunks `0 .. j-1` only, each but the last one below the
limit and, when reads are complete, free of NUL. -/
theorem readCStringLoop_log (k : Kernel) (mem : Nat → Byte) (lim chunk : Nat) (hfull : FullReads k mem chunk)
    (fuel : Nat) : ∀ (a size : Nat) (str : Bytes) (s : MemSt), s.mem = mem →
    ∃ entries j, (readCStringLoop k lim chunk fuel a size str s).2.log = entries ++ s.log ∧ j ≤ fuel ∧
      (∀ x ∈ entries, ∃ i, i < j ∧ ReadAccess k.arch.W (a + i * chunk) chunk x) ∧
      (∀ i, i + 1 < j → size + (i + 1) * chunk < lim ∧ NoNul mem (a + i * chunk) chunk) := by
  induction fuel with
  | zero =>
    intro a size str s _
    exact ⟨[], 0, by simp [readCStringLoop, Py.raise]⟩
  | succ fuel ih =>
    intro a size str s hs
    rw [readCStringLoop]
    have hr := readBytes_readRun k a chunk s
    obtain ⟨entries, he1, he2⟩ := hr.log
    have one : ∀ x ∈ entries, ∃ i, i < 1 ∧ ReadAccess k.arch.W (a + i * chunk) chunk x :=
      fun x hx => ⟨0, by omega, by simpa using he2 x hx⟩
    cases hrd : readBytes k a chunk s with
    | mk res s1 =>
      rw [hrd] at hr he1
      have hm : s1.mem = mem := by rw [← hs]; exact hr.mem
      have he1 : s1.log = entries ++ s.log := he1
      have stop : ∃ entries j, s1.log = entries ++ s.log ∧ j ≤ fuel + 1 ∧
        (∀ x ∈ entries, ∃ i, i < j ∧ ReadAccess k.arch.W (a + i * chunk) chunk x) ∧
        (∀ i, i + 1 < j → size + (i + 1) * chunk < lim ∧ NoNul mem (a + i * chunk) chunk) :=
        ⟨entries, 1, he1, by omega, one, by intro i hi; omega⟩
      cases res with
      | error e => rw [Py.bind_eq_error hrd]; exact stop
      | ok data =>
        rw [Py.bind_eq_ok hrd]
        by_cases hmx : lim ≤ size + chunk
        · rw [if_pos hmx]; exact stop
        · rw [if_neg hmx]
          cases hf : findNul data with
          | some p => exact stop
          | none =>
            simp only [Option.isSome_none, Bool.false_eq_true, if_false]
            obtain ⟨e2, j, h1, h2, h3, h4⟩ := ih (a + chunk) (size + chunk) (str ++ data) s1 hm
            refine ⟨e2 ++ entries, j + 1, by rw [h1, he1, List.append_assoc], by omega, ?_, ?_⟩
            · intro x hx
              rcases List.mem_append.1 hx with hx | hx
              · obtain ⟨i, hi, h⟩ := h3 x hx
                refine ⟨i + 1, by omega, ?_⟩
                have e : a + (i + 1) * chunk = a + chunk + i * chunk := by rw [Nat.add_mul]; omega
                rwa [e]
              · exact ⟨0, by omega, by simpa using he2 x hx⟩
            · intro i hi
              cases i with
              | zero =>
                refine ⟨by omega, ?_⟩
                intro i hi
                have hl := hfull s a data hs (by rw [hrd])
                have hd := (hr.result data rfl).2
                have := findNul_none hf i (by omega)
                rw [hs] at hd
                have hg := ((isRange_iff mem a data.length data).2 hd).2 i (by omega)
                rw [hg] at this
                simpa using this
              | succ i =>
                obtain ⟨h5, h6⟩ := h4 i (by omega)
                have e : a + (i + 1) * chunk = a + chunk + i * chunk := by rw [Nat.add_mul]; omega
                rw [e]
                refine ⟨?_, h6⟩
                have e' : size + (i + 1 + 1) * chunk = size + chunk + (i + 1) * chunk := by
                  rw [Nat.add_mul (i + 1)]; omega
                rw [e']; exact h5

/-- The flag, exactly: for a string of length `L` and complete reads, "truncated" is reported iff the
limit falls in or before the chunk that holds the terminating NUL. -/
theorem readCStringLoop_flag (k : Kernel) (mem : Nat → Byte) (lim chunk : Nat) (hfull : FullReads k mem chunk)
    (fuel : Nat) : ∀ (a size L : Nat) (str : Bytes) (s : MemSt) (t : Bytes) (b : Bool), s.mem = mem →
    NoNul mem a L → mem (a + L) = 0 → 0 < chunk →
    (readCStringLoop k lim chunk fuel a size str s).1 = .ok (t, b) →
    (b = true ↔ lim ≤ size + chunk * (L / chunk + 1)) := by
  induction fuel with
  | zero => intro a size L str s t b _ _ _ _ h; cases h
  | succ fuel ih =>
    intro a size L str s t b hs hnn hz hc
    rw [readCStringLoop]
    have hr := readBytes_readRun k a chunk s
    cases hrd : readBytes k a chunk s with
    | mk res s1 =>
      rw [hrd] at hr
      have hm : s1.mem = mem := by rw [← hs]; exact hr.mem
      cases res with
      | error e => rw [Py.bind_eq_error hrd]; intro h; cases h
      | ok data =>
        rw [Py.bind_eq_ok hrd]
        have hl := hfull s a data hs (by rw [hrd])
        have hd := (hr.result data rfl).2
        rw [hs] at hd
        have hg := ((isRange_iff mem a data.length data).2 hd).2
        have hdiv : chunk * 1 ≤ chunk * (L / chunk + 1) := Nat.mul_le_mul_left _ (Nat.succ_le_succ (Nat.zero_le _))
        by_cases hmx : lim ≤ size + chunk
        · rw [if_pos hmx]
          intro h; injection h with h; injection h with h h'; subst h'
          simp; omega
        · rw [if_neg hmx]
          cases hf : findNul data with
          | some p =>
            intro h; injection h with h; injection h with h h'; subst h'
            obtain ⟨hp1, hp2, hp3⟩ := findNul_some hf
            have hLp : L ≤ p := by
              by_contra hc'
              have := hnn p (by omega)
              rw [hg] at hp2; exact this hp2
            have : L / chunk = 0 := Nat.div_eq_of_lt (by omega)
            rw [this]; simp; omega
          | none =>
            simp only [Option.isSome_none, Bool.false_eq_true, if_false]
            intro h
            have hnl := findNul_none hf
            have hLc : chunk ≤ L := by
              by_contra hc'
              have := hnl L (by omega)
              rw [hg] at this; exact this hz
            have hsub : L / chunk = (L - chunk) / chunk + 1 := by
              rw [Nat.div_eq_sub_div hc hLc]
            have := ih (a + chunk) (size + chunk) (L - chunk) _ s1 t b hm
              (fun i hi => by rw [Nat.add_assoc]; exact hnn _ (by omega))
              (by rw [show a + chunk + (L - chunk) = a + L by omega]; exact hz) hc h
            rw [this, hsub, Nat.mul_add chunk ((L - chunk) / chunk + 1) 1]
            omega

theorem readBytesPeek_first_err (k : Kernel) (a n : Nat) (s : MemSt) (hn : 0 < n)
    (h : k.peekErr s.log (a - a % k.arch.W) ≠ 0) : ∃ e, (readBytesPeek k a n s).1 = .error e := by
  have hal : (a - a % k.arch.W) % k.arch.W = 0 := Nat.sub_mod_eq_zero_of_mod_eq (by simp)
  unfold readBytesPeek
  by_cases h0 : a % k.arch.W = 0
  · simp only [h0, ne_eq, not_true_eq_false, if_false]
    rw [h0, Nat.sub_zero] at h
    rw [readWords]
    simp only [Nat.ne_of_gt hn, dite_false]
    rw [Py.bind_eq_error (readWord_err k a s h0 h)]
    exact ⟨_, rfl⟩
  · simp only [h0, ne_eq, not_false_eq_true, if_true]
    rw [Py.bind_eq_error (readWord_err k _ s hal h)]
    exact ⟨_, rfl⟩

/-- A kernel whose address space is made of pages of `ps` bytes: `/proc/pid/mem` delivers mapped bytes
only and stops short only at an unmapped byte; unmapped words cannot be peeked. -/
structure Paged (k : Kernel) (mapped : Nat → Bool) (ps : Nat) : Prop where
  words : ps % k.arch.W = 0
  page : ∀ x y, x / ps = y / ps → mapped x = mapped y
  short : ∀ log a n c, k.readReply log a n = .count c → c < n → mapped (a + c) = false
  deliver : ∀ log a n c i, k.readReply log a n = .count c → i < c → i < n → mapped (a + i) = true
  peek : ∀ log w, mapped w = false → k.peekErr log w ≠ 0

theorem Paged.err {k : Kernel} {mapped : Nat → Bool} {ps : Nat} (h : Paged k mapped ps)
    (a n : Nat) (hn : 0 < n) (ha : mapped a = false) (s : MemSt) :
    ∃ e, (readBytes k a n s).1 = .error e := by
  have hpk : ∀ s, ∃ e, (readBytesPeek k a n s).1 = .error e := by
    intro s
    apply readBytesPeek_first_err k a n s hn
    apply h.peek
    rw [← ha]
    apply h.page
    -- the word of `a` lies in the page of `a`
    obtain ⟨q, hq⟩ := Nat.dvd_of_mod_eq_zero h.words
    have h1 : a / ps = a / k.arch.W / q := by rw [Nat.div_div_eq_div_mul, ← hq]
    have h2 : (a - a % k.arch.W) / ps = (a - a % k.arch.W) / k.arch.W / q := by
      rw [Nat.div_div_eq_div_mul, ← hq]
    rw [h1, h2]
    congr 1
    have hW := W_pos k.arch
    have e : a - a % k.arch.W = k.arch.W * (a / k.arch.W) := by
      have := Nat.div_add_mod a k.arch.W; omega
    rw [e, Nat.mul_div_cancel_left _ hW]
  have hmf : ∀ s, ∃ e, (readMemFile k a n s).1 = .error e := by
    intro s
    unfold readMemFile
    split
    · exact ⟨_, rfl⟩
    · dsimp only
      cases hr : k.readReply s.log a n with
      | err e => exact ⟨_, rfl⟩
      | count c =>
        dsimp only
        have hc : c = 0 := by
          by_contra hc
          have := h.deliver s.log a n c 0 hr (by omega) hn
          rw [Nat.add_zero, ha] at this; cases this
        subst hc
        rw [if_pos (by simp; omega)]
        exact hpk _
  unfold readBytes
  split
  · exact hpk s
  · split
    · exact hmf s
    · dsimp only
      split
      · exact hpk _
      · exact hmf _

theorem Paged.noSkip {k : Kernel} {mapped : Nat → Bool} {ps : Nat} (h : Paged k mapped ps)
    (mem : Nat → Byte) (chunk : Nat) (hc : 0 < chunk) (hps : chunk ≤ ps) : NoSkip k mem chunk := by
  intro s a d hs hok hlen hz s' hs'
  -- a short result comes from `/proc/pid/mem`
  have hp : ∀ s, (readBytesPeek k a chunk s).1 = .ok d → False := by
    intro s hok
    obtain ⟨_, hr⟩ := readBytesPeek_run k a chunk s
    rcases hr.outcome with h | ⟨_, _, _, _, h⟩
    · rw [h] at hok; injection hok with hok; rw [← hok] at hlen; simp at hlen
    · rw [h] at hok; cases hok
  have hm : ∀ s, (readMemFile k a chunk s).1 = .ok d →
      ∃ log c, k.readReply log a chunk = .count c ∧ 0 < c ∧ c < chunk := by
    intro s hok
    unfold readMemFile at hok
    split at hok
    · cases hok
    · dsimp only at hok
      cases hr : k.readReply s.log a chunk with
      | err e => rw [hr] at hok; cases hok
      | count c =>
        rw [hr] at hok
        dsimp only at hok
        split at hok
        · exact absurd hok (fun h => hp _ h)
        · rename_i hz
          injection hok with hok
          rw [← hok] at hlen
          simp at hlen hz
          exact ⟨s.log, c, hr, by omega, by omega⟩
  have hmm : ∃ log c, k.readReply log a chunk = .count c ∧ 0 < c ∧ c < chunk := by
    unfold readBytes at hok
    split at hok
    · exact absurd hok (fun h => hp _ h)
    · split at hok
      · exact hm _ hok
      · dsimp only at hok
        split at hok
        · exact absurd hok (fun h => hp _ h)
        · exact hm _ hok
  obtain ⟨log, c, h1, h2, h3⟩ := hmm
  have hu := h.short log a chunk c h1 h3
  have hmap := h.deliver log a chunk c (c - 1) h1 (by omega) (by omega)
  have hpos : 0 < ps := by omega
  -- the end of the delivered bytes is the start of a page
  have hdiv : (a + c) % ps = 0 := by
    by_contra hne
    have : (a + (c - 1)) / ps = (a + c) / ps := by
      have e := Nat.div_add_mod (a + c) ps
      have hlt := Nat.mod_lt (a + c) hpos
      have e2 : a + (c - 1) = ps * ((a + c) / ps) + ((a + c) % ps - 1) := by omega
      have e3 : ((a + c) % ps - 1) / ps = 0 := Nat.div_eq_of_lt (by omega)
      rw [e2, Nat.mul_add_div hpos, e3, Nat.add_zero]
    rw [h.page _ _ this, hu] at hmap; cases hmap
  have hnext : mapped (a + chunk) = false := by
    rw [← hu]
    apply h.page
    have e := Nat.div_add_mod (a + c) ps
    have e2 : a + chunk = ps * ((a + c) / ps) + (chunk - c) := by omega
    have e3 : (chunk - c) / ps = 0 := Nat.div_eq_of_lt (by omega)
    rw [e2, Nat.mul_add_div hpos, e3, Nat.add_zero]
  exact h.err (a + chunk) chunk hc hnext s'

end PT
