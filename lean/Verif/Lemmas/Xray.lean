import Verif.Spec.Xray
import Verif.Lemmas.Search
import Verif.Lemmas.Wrappers
import Verif.Props.Ctypes

namespace PT
open Spec

/-- The memory of the processes is `M`. -/
def Sees (M : Nat → Nat → Byte) (c : Con XSt) : Prop := ∀ p, (c.inner.mems p).mem = M p

/-- Nothing but the requests to the kernel differs. -/
def Quietly (M : Nat → Nat → Byte) (c d : Con XSt) : Prop := Sees M d ∧ d.out = c.out ∧ d.inner.terms = c.inner.terms

theorem Quietly.trans {M : Nat → Nat → Byte} {c d e : Con XSt} (h : Quietly M c d) (h' : Quietly M d e) : Quietly M c e :=
  ⟨h'.1, h'.2.1.trans h.2.1, h'.2.2.trans h.2.2⟩

theorem readOf_quiet {M : Nat → Nat → Byte} (x : XEnv) (pid a n : Nat) {c : Con XSt} (hc : Sees M c) : Quietly M c (readOf x pid a n c).2 := by
  refine ⟨fun p => ?_, rfl, rfl⟩
  show (if p = pid then _ else _ : MemSt).mem = _
  split
  · next h => rw [h, (readBytes_readRun (x.kernel pid) a n (c.inner.mems pid)).mem, hc pid]
  · exact hc p

theorem readOf_data {M : Nat → Nat → Byte} (x : XEnv) (pid a n : Nat) {c : Con XSt} (hc : Sees M c) {data : Bytes} (h : (readOf x pid a n c).1 = .ok data) :
    data.length ≤ n ∧ data = bytesAt (M pid) a data.length := by
  obtain ⟨h1, h2⟩ := (readBytes_readRun (x.kernel pid) a n (c.inner.mems pid)).result data h
  rw [hc pid] at h2
  exact ⟨h1, h2⟩

/-- All reads inside `[start, stop)` are complete. -/
def ReadsAll (k : Kernel) (mem : Nat → Byte) (start stop : Nat) : Prop :=
  ∀ s a n, s.mem = mem → start ≤ a → a + n ≤ stop → ∃ d, (readBytes k a n s).1 = .ok d ∧ d.length = n

theorem readOf_complete {M : Nat → Nat → Byte} (x : XEnv) (pid a n : Nat) {start stop : Nat} (hr : ReadsAll (x.kernel pid) (M pid) start stop)
    {c : Con XSt} (hc : Sees M c) (h1 : start ≤ a) (h2 : a + n ≤ stop) :
    ∃ d, readOf x pid a n c = (.ok (bytesAt (M pid) a n), d) ∧ Quietly M c d := by
  obtain ⟨data, hd, hl⟩ := hr (c.inner.mems pid) a n (hc pid) h1 h2
  have hd' : (readOf x pid a n c).1 = .ok data := hd
  obtain ⟨_, h4⟩ := readOf_data x pid a n hc hd'
  refine ⟨(readOf x pid a n c).2, Prod.ext ?_ rfl, readOf_quiet x pid a n hc⟩
  rw [hd', h4, hl]

theorem requested_le {rem buf n : Nat} (hb : n ≤ buf) (hlt : ¬ rem < n) : n ≤ (if rem > buf then buf else rem) ∧ (if rem > buf then buf else rem) ≤ rem := by
  split <;> omega

theorem collectDo_scan {M : Nat → Nat → Byte} (x : XEnv) (pid : Nat) (pat : Bytes) (buf : Nat) (hb : pat.length ≤ buf) (hp : 0 < pat.length)
    {start stop : Nat} (hr : ReadsAll (x.kernel pid) (M pid) start stop) (fuel : Nat) : ∀ (covered remaining : Nat) (c : Con XSt), Sees M c →
    start ≤ covered → covered + remaining = stop → remaining < fuel →
    ∃ l d, collectDo x pid pat buf fuel covered remaining c = (.ok l, d) ∧ IsScan (M pid) pat stop covered l ∧ Quietly M c d := by
  induction fuel with
  | zero => intro _ _ _ _ _ _ h; omega
  | succ fuel ih =>
    intro cov rem c hc h1 h2 h3
    by_cases hlt : rem < pat.length
    · refine ⟨[], c, ?_, fun q h4 h5 => by omega, hc, rfl, rfl⟩
      rw [collectDo, if_pos hlt]; rfl
    · obtain ⟨hq1, hq2⟩ := requested_le hb hlt
      obtain ⟨d, hd, hqd⟩ := readOf_complete x pid cov (if rem > buf then buf else rem) hr hc h1 (by omega)
      cases hf : pyFind (bytesAt (M pid) cov (if rem > buf then buf else rem)) pat with
      | none =>
        have hnone := pyFind_none hf
        obtain ⟨l, e, he, hs, hqe⟩ := ih (cov + ((if rem > buf then buf else rem) - pat.length + 1)) (rem - ((if rem > buf then buf else rem) - pat.length + 1)) d
          hqd.1 (by omega) (by omega) (by omega)
        refine ⟨l, e, ?_, hs.weaken (by omega) ?_, hqd.trans hqe⟩
        · rw [collectDo, if_neg hlt]
          simp only []
          rw [Py.run_bind_ok hd, hf]
          exact he
        · intro q h4 h5 h6
          have := hnone (q - cov) (by omega)
          rwa [show cov + (q - cov) = q by omega] at this
      | some o =>
        obtain ⟨f1, f2, f3⟩ := pyFind_some hf
        obtain ⟨l, e, he, hs, hqe⟩ := ih (cov + (o + pat.length)) (rem - (o + pat.length)) d hqd.1 (by omega) (by omega) (by omega)
        refine ⟨(cov + o) :: l, e, ?_, ⟨by omega, by omega, f2, ?_, ?_⟩, hqd.trans hqe⟩
        · rw [collectDo, if_neg hlt]
          simp only []
          rw [Py.run_bind_ok hd, hf]
          simp only []
          rw [Py.run_bind_ok he]
          rfl
        · intro q h4 h5
          have := f3 (q - cov) (by omega)
          rwa [show cov + (q - cov) = q by omega] at this
        · rw [Nat.add_assoc]; exact hs

theorem collectMaps_scan {M : Nat → Nat → Byte} (x : XEnv) (fuel pid : Nat) (pat : Bytes) (hp : 0 < pat.length) (ms : List Mapping)
    (hm : ∀ m ∈ ms, m.start ≤ m.stop ∧ m.stop - m.start < fuel ∧ ReadsAll (x.kernel pid) (M pid) m.start m.stop) (c : Con XSt) (hc : Sees M c) :
    ∃ l d, collectMaps x fuel pid pat ms c = (.ok l, d) ∧ Parts (fun m l => IsScan (M pid) pat m.stop m.start l) ms l ∧ Quietly M c d := by
  induction ms generalizing c with
  | nil => exact ⟨[], c, rfl, ⟨[], List.Forall₂.nil, rfl⟩, hc, rfl, rfl⟩
  | cons m ms ih =>
    obtain ⟨h1, h2, h3⟩ := hm m (List.mem_cons_self ..)
    obtain ⟨l, d, hd, hs, hq⟩ := collectDo_scan x pid pat (searchBufLen pat) (searchBufLen_le pat).1 hp h3 fuel m.start (m.stop - m.start) c hc
      (Nat.le_refl _) (by omega) h2
    obtain ⟨l', e, he, ⟨parts, hs', hl'⟩, hq'⟩ := ih (fun m hm' => hm m (List.mem_cons_of_mem _ hm')) d hq.1
    refine ⟨l ++ l', e, ?_, ⟨l :: parts, List.Forall₂.cons hs hs', by rw [hl']; rfl⟩, hq.trans hq'⟩
    rw [collectMaps, Py.run_bind_ok hd, Py.run_bind_ok he]
    rfl

theorem word2bytes_wordBytes {a : Arch} {v : Nat} (h : v < 256 ^ a.W) : ∃ pat, word2bytes a v = .ok pat ∧ WordBytes a v pat := by
  obtain ⟨g1, g2⟩ := isUint_store a.big (fun _ => 0) 0 a.W v h
  refine ⟨uintBytes a.big a.W v, ?_, uintBytes_length _ _ _, fun i hi => ?_⟩
  · unfold word2bytes packUint uintBytes
    rw [if_pos (by constructor; omega; exact_mod_cast h)]
    cases a.big <;> simp
  · rw [uintBytes_length] at hi
    have := g2 i hi
    rwa [storeBytes_in _ _ _ _ (by rw [uintBytes_length]; omega)] at this

theorem word2bytes_inv {a : Arch} {v : Nat} {pat : Bytes} (h : word2bytes a v = .ok pat) : v < 256 ^ a.W ∧ WordBytes a v pat := by
  by_cases hv : v < 256 ^ a.W
  · obtain ⟨pat', h1, h2⟩ := word2bytes_wordBytes hv
    rw [h] at h1
    cases h1
    exact ⟨hv, h2⟩
  · unfold word2bytes packUint at h
    rw [if_neg] at h
    · cases h
    · rintro ⟨_, h2⟩
      exact hv (by exact_mod_cast h2)

theorem isUint_of_occurs {a : Arch} {mem : Nat → Byte} {v p : Nat} {pat : Bytes} (hv : v < 256 ^ a.W) (hw : WordBytes a v pat) (h : Occurs mem pat p) :
    IsUint a.big mem p a.W v := by
  refine ⟨hv, fun i hi => ?_⟩
  rw [h i (by rw [hw.1]; exact hi)]
  exact hw.2 i (by rw [hw.1]; exact hi)

theorem occurs_of_isUint {a : Arch} {mem : Nat → Byte} {v p : Nat} {pat : Bytes} (hw : WordBytes a v pat) (h : IsUint a.big mem p a.W v) :
    Occurs mem pat p := by
  intro i hi
  have h1 := hw.2 i hi
  have h2 := h.2 i (by rw [← hw.1]; exact hi)
  exact Fin.ext (h2.trans h1.symm)

/-! ### Complete runs -/

/-- The action ends, prints lines that meet `P` and leaves memory and terms. -/
def Prints (M : Nat → Nat → Byte) (f : Py (Con XSt) Unit) (P : List Str → Prop) : Prop :=
  ∀ c, Sees M c → ∃ lines d, f c = (.ok (), d) ∧ P lines ∧ d.out = c.out ++ lines ∧ Sees M d ∧ d.inner.terms = c.inner.terms

theorem forEach_prints {M : Nat → Nat → Byte} {α : Type} {P : α → List Str → Prop} {f : α → Py (Con XSt) Unit} (l : List α)
    (h : ∀ a ∈ l, Prints M (f a) (P a)) : Prints M (forEach l f) (Parts P l) := by
  induction l with
  | nil => exact fun c hc => ⟨[], c, rfl, ⟨[], List.Forall₂.nil, rfl⟩, (List.append_nil _).symm, hc, rfl⟩
  | cons a l ih =>
    intro c hc
    obtain ⟨l1, d, hd, h1, ho, hs, ht⟩ := h a (List.mem_cons_self ..) c hc
    obtain ⟨l2, e, he, ⟨parts, h2, hl2⟩, ho', hs', ht'⟩ := ih (fun a ha => h a (List.mem_cons_of_mem _ ha)) d hs
    refine ⟨l1 ++ l2, e, ?_, ⟨l1 :: parts, List.Forall₂.cons h1 h2, by rw [hl2]; rfl⟩, ?_, hs', ht'.trans ht⟩
    · rw [forEach, Py.run_bind_ok hd, he]
    · rw [ho', ho, List.append_assoc]

theorem searchDo_prints {M : Nat → Nat → Byte} (x : XEnv) (pid : Nat) (pat : Bytes) (buf : Nat) (hb : pat.length ≤ buf) (hp : 0 < pat.length)
    {start stop : Nat} (hr : ReadsAll (x.kernel pid) (M pid) start stop) {f : Nat → Py (Con XSt) Unit} {Q : Nat → Str → Prop}
    (hf : ∀ address, start ≤ address → address + pat.length ≤ stop → Prints M (f address) (fun lines => ∃ line, Q address line ∧ lines = [line])) (fuel : Nat) :
    ∀ (covered remaining : Nat), start ≤ covered → covered + remaining = stop → remaining < fuel →
    Prints M (searchDo x pid pat buf f fuel covered remaining) (fun lines => ∃ l, IsScan (M pid) pat stop covered l ∧ List.Forall₂ Q l lines) := by
  induction fuel with
  | zero => intro _ _ _ _ h; omega
  | succ fuel ih =>
    intro cov rem h1 h2 h3 c hc
    by_cases hlt : rem < pat.length
    · refine ⟨[], c, ?_, ⟨[], fun q h4 h5 => by omega, List.Forall₂.nil⟩, (List.append_nil _).symm, hc, rfl⟩
      rw [searchDo, if_pos hlt]; rfl
    · obtain ⟨hq1, hq2⟩ := requested_le hb hlt
      obtain ⟨d, hd, hqd⟩ := readOf_complete x pid cov (if rem > buf then buf else rem) hr hc h1 (by omega)
      cases hfi : pyFind (bytesAt (M pid) cov (if rem > buf then buf else rem)) pat with
      | none =>
        have hnone := pyFind_none hfi
        obtain ⟨ls, e, he, ⟨l, hs, hfa⟩, ho, hse, hte⟩ := ih (cov + ((if rem > buf then buf else rem) - pat.length + 1))
          (rem - ((if rem > buf then buf else rem) - pat.length + 1)) (by omega) (by omega) (by omega) d hqd.1
        refine ⟨ls, e, ?_, ⟨l, hs.weaken (by omega) ?_, hfa⟩, ho.trans (by rw [hqd.2.1]), hse, hte.trans hqd.2.2⟩
        · rw [searchDo, if_neg hlt]
          simp only []
          rw [Py.run_bind_ok hd, hfi]
          exact he
        · intro q h4 h5 h6
          have := hnone (q - cov) (by omega)
          rwa [show cov + (q - cov) = q by omega] at this
      | some o =>
        obtain ⟨f1, f2, f3⟩ := pyFind_some hfi
        obtain ⟨ls1, d', hd', ⟨line, hQ, hls1⟩, ho1, hs1, ht1⟩ := hf (cov + o) (by omega) (by omega) d hqd.1
        obtain ⟨ls, e, he, ⟨l, hs, hfa⟩, ho, hse, hte⟩ := ih (cov + (o + pat.length)) (rem - (o + pat.length)) (by omega) (by omega) (by omega) d' hs1
        refine ⟨line :: ls, e, ?_, ⟨(cov + o) :: l, ⟨by omega, by omega, f2, ?_, ?_⟩, List.Forall₂.cons hQ hfa⟩, ?_, hse,
          (hte.trans ht1).trans hqd.2.2⟩
        · rw [searchDo, if_neg hlt]
          simp only []
          rw [Py.run_bind_ok hd, hfi]
          simp only []
          rw [Py.run_bind_ok hd', he]
        · intro q h4 h5
          have := f3 (q - cov) (by omega)
          rwa [show cov + (q - cov) = q by omega] at this
        · rw [Nat.add_assoc]; exact hs
        · rw [ho, ho1, hls1, hqd.2.1, List.append_assoc]; rfl

/-! ### Texts -/

theorem formatAddress_text (a : Arch) (n : Nat) : AddressText n (formatAddress a n) :=
  ⟨fun h => (Props.C03_null a n).2 h, fun h => Props.C03_lossless a n h⟩

theorem mappingText_text (a : Arch) (m : Mapping) : MappingText m (mappingText a m) := by
  refine ⟨formatAddress a m.start, formatAddress a m.stop, (match m.pathname with
    | some p => if p.isEmpty then [] else " => ".toList ++ p
    | none => []), formatAddress_text .., formatAddress_text .., ?_, ?_, ?_⟩
  · rintro (h | h)
    · rw [h]
    · rw [h]; rfl
  · intro p h hp
    rw [h]
    show (if p.isEmpty = true then _ else _) = _
    rw [if_neg (by simpa using hp)]
  · unfold mappingText
    cases m.pathname <;> simp

theorem xrayLine_line (a : Arch) (term : Bytes) (pid : Nat) (m : Mapping) (address : Nat) (pointers : List Nat) :
    XrayLine term pid m address pointers (xrayLine a term pid m address pointers) := by
  obtain ⟨l, h1, h2⟩ := literal_reprBytes term
  refine ⟨l, pyDec pid, mappingText a m, formatAddress a address, pointers.map (formatAddress a), h2, decNumber_pyDec pid, mappingText_text .., formatAddress_text ..,
    ?_, ?_⟩
  · induction pointers with
    | nil => exact List.Forall₂.nil
    | cons p ps ih => exact List.Forall₂.cons (formatAddress_text ..) ih
  · unfold xrayLine
    rw [h1]
    simp

/-! ### Runs against any kernel -/

/-- Whatever happens, the lines printed meet `R`, and memory and terms are left. -/
def Honest {α : Type} (M : Nat → Nat → Byte) (f : Py (Con XSt) α) (R : Str → Prop) : Prop :=
  ∀ c, Sees M c → Sees M (f c).2 ∧ (f c).2.inner.terms = c.inner.terms ∧ ∃ lines, (f c).2.out = c.out ++ lines ∧ ∀ line ∈ lines, R line

theorem Honest.bind {M : Nat → Nat → Byte} {R : Str → Prop} {α β : Type} {f : Py (Con XSt) α} {g : α → Py (Con XSt) β} (hf : Honest M f R)
    (hg : ∀ a, (∃ c d, Sees M c ∧ f c = (.ok a, d)) → Honest M (g a) R) : Honest M (Py.bind f g) R := by
  intro c hc
  obtain ⟨h1, h2, l1, h3, h4⟩ := hf c hc
  cases h : f c with
  | mk r d =>
    rw [h] at h1 h2 h3
    cases r with
    | error e => rw [Py.run_bind_error h]; exact ⟨h1, h2, l1, h3, h4⟩
    | ok a =>
      obtain ⟨g1, g2, l2, g3, g4⟩ := hg a ⟨c, d, hc, h⟩ d h1
      rw [Py.run_bind_ok h]
      refine ⟨g1, g2.trans h2, l1 ++ l2, by rw [g3, h3, List.append_assoc], fun line hl => ?_⟩
      rcases List.mem_append.1 hl with hl | hl
      · exact h4 _ hl
      · exact g4 _ hl

theorem Honest.quiet {M : Nat → Nat → Byte} {R : Str → Prop} {α : Type} {f : Py (Con XSt) α} (h : ∀ c, Sees M c → Quietly M c (f c).2) : Honest M f R :=
  fun c hc => ⟨(h c hc).1, (h c hc).2.2, [], by rw [(h c hc).2.1, List.append_nil], fun _ h => by cases h⟩

theorem honest_pure {M : Nat → Nat → Byte} {R : Str → Prop} {α : Type} (a : α) : Honest M (Py.pure a) R :=
  Honest.quiet fun _ hc => ⟨hc, rfl, rfl⟩

theorem honest_raise {M : Nat → Nat → Byte} {R : Str → Prop} {α : Type} (e : Exc) : Honest M (Py.raise e : Py (Con XSt) α) R :=
  Honest.quiet fun _ hc => ⟨hc, rfl, rfl⟩

theorem honest_say {M : Nat → Nat → Byte} {R : Str → Prop} {t : Str} (h : R t) : Honest M (say t) R :=
  fun _ hc => ⟨hc, rfl, [t], rfl, fun line hl => by rw [List.mem_singleton.1 hl]; exact h⟩

theorem honest_forEach {M : Nat → Nat → Byte} {R : Str → Prop} {α : Type} {f : α → Py (Con XSt) Unit} (l : List α) (h : ∀ a ∈ l, Honest M (f a) R) :
    Honest M (forEach l f) R := by
  induction l with
  | nil => exact honest_pure ()
  | cons a l ih =>
    exact Honest.bind (h a (List.mem_cons_self ..)) fun _ _ => ih fun a ha => h a (List.mem_cons_of_mem _ ha)

theorem pos_of_not_found {mem : Nat → Byte} {a n : Nat} {pat : Bytes} (h : pyFind (bytesAt mem a n) pat = none) : 0 < pat.length := by
  by_contra hp
  exact pyFind_none h 0 (by omega) fun i hi => by omega

theorem honest_searchDo {M : Nat → Nat → Byte} {R : Str → Prop} (x : XEnv) (pid : Nat) (pat : Bytes) (buf : Nat) (hb : pat.length ≤ buf)
    {stop : Nat} {f : Nat → Py (Con XSt) Unit} (start : Nat)
    (hf : ∀ address, start ≤ address → address + pat.length ≤ stop → Occurs (M pid) pat address → Honest M (f address) R) (fuel : Nat) :
    ∀ (covered remaining : Nat), start ≤ covered → covered + remaining ≤ stop → Honest M (searchDo x pid pat buf f fuel covered remaining) R := by
  induction fuel with
  | zero => intro _ _ _ _; exact honest_raise _
  | succ fuel ih =>
    intro cov rem h1 h2
    rw [searchDo]
    by_cases hlt : rem < pat.length
    · rw [if_pos hlt]; exact honest_pure ()
    · rw [if_neg hlt]
      obtain ⟨hq1, hq2⟩ := requested_le hb hlt
      refine Honest.bind (Honest.quiet fun c hc => readOf_quiet x pid _ _ hc) fun data hdata => ?_
      obtain ⟨c, d, hc, hd⟩ := hdata
      obtain ⟨hl, hda⟩ := readOf_data x pid _ _ hc (congrArg Prod.fst hd)
      cases hfi : pyFind data pat with
      | none =>
        have := pos_of_not_found (hda ▸ hfi)
        exact ih _ _ (by omega) (by omega)
      | some o =>
        rw [hda] at hfi
        obtain ⟨f1, f2, f3⟩ := pyFind_some hfi
        exact Honest.bind (hf _ (by omega) (by omega) f2) fun _ _ => ih _ _ (by omega) (by omega)

theorem collectDo_quiet {M : Nat → Nat → Byte} (x : XEnv) (pid : Nat) (pat : Bytes) (buf : Nat) (hb : pat.length ≤ buf) {start stop : Nat} (fuel : Nat) :
    ∀ (covered remaining : Nat) (c : Con XSt), Sees M c → start ≤ covered → covered + remaining ≤ stop →
    Quietly M c (collectDo x pid pat buf fuel covered remaining c).2 ∧
    ∀ l, (collectDo x pid pat buf fuel covered remaining c).1 = .ok l → ∀ p ∈ l, start ≤ p ∧ p + pat.length ≤ stop ∧ Occurs (M pid) pat p := by
  induction fuel with
  | zero => intro _ _ c hc _ _; exact ⟨⟨hc, rfl, rfl⟩, fun l hl => by cases hl⟩
  | succ fuel ih =>
    intro cov rem c hc h1 h2
    rw [collectDo]
    by_cases hlt : rem < pat.length
    · rw [if_pos hlt]; exact ⟨⟨hc, rfl, rfl⟩, fun l hl p hp => by cases hl; cases hp⟩
    · rw [if_neg hlt]
      obtain ⟨hq1, hq2⟩ := requested_le hb hlt
      simp only []
      have hq := readOf_quiet x pid cov (if rem > buf then buf else rem) hc
      cases hd : readOf x pid cov (if rem > buf then buf else rem) c with
      | mk r d =>
        rw [hd] at hq
        cases r with
        | error e => rw [Py.run_bind_error hd]; exact ⟨hq, fun l hl => by cases hl⟩
        | ok data =>
          obtain ⟨hl, hda⟩ := readOf_data x pid _ _ hc (congrArg Prod.fst hd)
          rw [Py.run_bind_ok hd]
          cases hfi : pyFind data pat with
          | none =>
            have := pos_of_not_found (hda ▸ hfi)
            obtain ⟨i1, i2⟩ := ih (cov + ((if rem > buf then buf else rem) - pat.length + 1)) (rem - ((if rem > buf then buf else rem) - pat.length + 1)) d
              hq.1 (by omega) (by omega)
            exact ⟨hq.trans i1, i2⟩
          | some o =>
            rw [hda] at hfi
            obtain ⟨f1, f2, f3⟩ := pyFind_some hfi
            obtain ⟨i1, i2⟩ := ih (cov + (o + pat.length)) (rem - (o + pat.length)) d hq.1 (by omega) (by omega)
            simp only []
            cases hrest : collectDo x pid pat buf fuel (cov + (o + pat.length)) (rem - (o + pat.length)) d with
            | mk r e =>
              rw [hrest] at i1 i2
              cases r with
              | error _ => rw [Py.run_bind_error hrest]; exact ⟨hq.trans i1, fun l hl => by cases hl⟩
              | ok rest =>
                rw [Py.run_bind_ok hrest]
                refine ⟨hq.trans i1, fun l hl p hp => ?_⟩
                cases hl
                rcases List.mem_cons.1 hp with rfl | hp
                · exact ⟨by omega, by omega, f2⟩
                · exact i2 rest rfl p hp

theorem collectMaps_quiet {M : Nat → Nat → Byte} (x : XEnv) (fuel pid : Nat) (pat : Bytes) (ms : List Mapping) (hm : ∀ m ∈ ms, m.start ≤ m.stop)
    (c : Con XSt) (hc : Sees M c) :
    Quietly M c (collectMaps x fuel pid pat ms c).2 ∧
    ∀ l, (collectMaps x fuel pid pat ms c).1 = .ok l → ∀ p ∈ l, ∃ m ∈ ms, m.start ≤ p ∧ p + pat.length ≤ m.stop ∧ Occurs (M pid) pat p := by
  induction ms generalizing c with
  | nil => exact ⟨⟨hc, rfl, rfl⟩, fun l hl p hp => by cases hl; cases hp⟩
  | cons m ms ih =>
    have hle := hm m (List.mem_cons_self ..)
    obtain ⟨h1, h2⟩ := collectDo_quiet x pid pat (searchBufLen pat) (searchBufLen_le pat).1 (stop := m.stop) fuel m.start (m.stop - m.start) c hc
      (Nat.le_refl _) (by omega)
    rw [collectMaps]
    cases hd : collectDo x pid pat (searchBufLen pat) fuel m.start (m.stop - m.start) c with
    | mk r d =>
      rw [hd] at h1 h2
      cases r with
      | error e => rw [Py.run_bind_error hd]; exact ⟨h1, fun l hl => by cases hl⟩
      | ok l1 =>
        rw [Py.run_bind_ok hd]
        obtain ⟨i1, i2⟩ := ih (fun m hm' => hm m (List.mem_cons_of_mem _ hm')) d h1.1
        cases he : collectMaps x fuel pid pat ms d with
        | mk r e =>
          rw [he] at i1 i2
          cases r with
          | error _ => rw [Py.run_bind_error he]; exact ⟨h1.trans i1, fun l hl => by cases hl⟩
          | ok l2 =>
            rw [Py.run_bind_ok he]
            refine ⟨h1.trans i1, fun l hl p hp => ?_⟩
            cases hl
            rcases List.mem_append.1 hp with hp | hp
            · exact ⟨m, List.mem_cons_self .., h2 l1 rfl p hp⟩
            · obtain ⟨m', hm', h⟩ := i2 l2 rfl p hp
              exact ⟨m', List.mem_cons_of_mem _ hm', h⟩

/-- The mappings of the processes are `maps`. -/
def Maps (x : XEnv) (maps : Nat → List Mapping) : Prop := ∀ pid, readMappings x.space (x.maps pid) = .ok (maps pid)

theorem Maps.run {x : XEnv} {maps : Nat → List Mapping} (h : Maps x maps) (pid : Nat) (c : Con XSt) : mappingsOf x pid c = (.ok (maps pid), c) := by
  unfold mappingsOf; rw [h pid]; rfl

end PT
