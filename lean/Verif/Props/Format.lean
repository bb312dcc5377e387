import Verif.Lemmas.Format4
import Verif.Props.Ctypes

/-!
C55–C58, C67, C68: text of flags, sets, results, calls and arrays of strings.
-/

namespace PT
open Spec

/-! ## C55 — bit masks -/

/-- With masks that do not overlap: the names whose mask meets the value, in table order, then the other bits as a number. -/
theorem C55_list (table : List (Nat × Str)) (v : Nat) (h : DisjointMasks table) :
    ∃ r texts, Rest table v r ∧ RestText r texts ∧
      readBits v table = (table.filter fun e => decide (v &&& e.1 ≠ 0)).map Prod.snd ++ texts := readBits_list table v h

/-- With single bits, the value is the sum of the listed masks and of the number. -/
theorem C55_sum (table : List (Nat × Str)) (v : Nat) (h : SingleBits table) :
    ∃ r texts, Rest table v r ∧ RestText r texts ∧
      readBits v table = (table.filter fun e => decide (v &&& e.1 ≠ 0)).map Prod.snd ++ texts ∧
      ((table.filter fun e => decide (v &&& e.1 ≠ 0)).map Prod.fst).sum + r = v := readBits_sum table v h

/-- Different values give different lists, when names are distinct and none looks like a number. -/
theorem C55_injective (table : List (Nat × Str)) (h : SingleBits table) (hn : (table.map Prod.snd).Nodup)
    (hd : ∀ e ∈ table, decNumber e.2 = none) (v w : Nat) (he : readBits v table = readBits w table) : v = w :=
  readBits_inj h hn hd he

/-- The text of `formatBits` determines the value, for every table, and shows the list of names before the value. -/
theorem C55_text (table : List (Nat × Str)) (empty : Option Str) :
    (∀ v, v ≠ 0 → ∃ t, decNumber t = some v ∧
      formatBits v table empty = '<' :: ['|'].intercalate (readBits v table) ++ "> (".toList ++ t ++ [')']) ∧
    ((∀ t, empty = some t → t.getLast? ≠ some ')') → ∀ v w, formatBits v table empty = formatBits w table empty → v = w) :=
  ⟨fun v hv => ⟨pyDec v, decNumber_pyDec v, formatBits_text hv empty⟩, fun he _ _ h => formatBits_inj he h⟩

private theorem access_single : SingleBits accessModeBitmask := by
  refine ⟨?_, by decide⟩
  intro e he
  simp only [accessModeBitmask, List.mem_cons, List.not_mem_nil, or_false] at he
  rcases he with rfl | rfl | rfl
  · exact ⟨0, rfl⟩
  · exact ⟨1, rfl⟩
  · exact ⟨2, rfl⟩

example := C55_list accessModeBitmask 13 (by unfold DisjointMasks; decide)

example := C55_sum accessModeBitmask 13 access_single

example := C55_injective accessModeBitmask access_single (by decide) (by decide +kernel) 13 13 rfl

-- the hypotheses are met by the access mode table; 13 is X_OK, R_OK and 8
example : SingleBits accessModeBitmask ∧ (accessModeBitmask.map Prod.snd).Nodup ∧ (∀ e ∈ accessModeBitmask, decNumber e.2 = none) ∧
    readBits 13 accessModeBitmask = ["X_OK".toList, "R_OK".toList, "8".toList] :=
  ⟨access_single, by decide, by decide +kernel, by decide +kernel⟩

example : formatBits 13 accessModeBitmask none = "<X_OK|R_OK|8> (13)".toList := by decide +kernel

/-! ## C56 — flags of open, mmap, access and clone -/

/-- The text determines the value. -/
theorem C56_determines (signames : List (Nat × Str)) (v w : Nat) :
    (formatMmapProt v = formatMmapProt w → v = w) ∧ (formatAccessMode v = formatAccessMode w → v = w) ∧
    (formatOpenFlags v = formatOpenFlags w → v = w) ∧ (formatOpenMode v = formatOpenMode w → v = w) ∧
    (formatCloneFlags signames v = formatCloneFlags signames w → v = w) := by
  refine ⟨formatBits_inj ?_, formatBits_inj ?_, ?_, ?_, ?_⟩
  · rintro t ⟨⟩; decide
  · rintro t ⟨⟩; decide
  · have hz : ∀ u, u ≠ 0 → formatOpenFlags 0 ≠ formatOpenFlags u := by
      intro u hu h
      have h0 : formatOpenFlags 0 = "O_RDONLY".toList := by decide +kernel
      rw [h0] at h
      unfold formatOpenFlags at h
      simp only at h
      rw [if_pos hu] at h
      have := congrArg List.getLast? h
      rw [List.getLast?_append] at this
      cases this
    intro h
    by_cases hv : v = 0
    · by_cases hw : w = 0
      · rw [hv, hw]
      · rw [hv] at h; exact absurd h (hz w hw)
    · by_cases hw : w = 0
      · rw [hw] at h; exact absurd h.symm (hz v hv)
      · unfold formatOpenFlags at h
        simp only at h
        rw [if_pos hv, if_pos hw] at h
        have e1 : ∀ (x : Str) (n : Nat), x ++ " (".toList ++ pyOct n ++ [')'] = (x ++ [' ']) ++ '(' :: pyOct n ++ [')'] := by
          intro x n; simp
        rw [e1, e1] at h
        exact pyOct_inj (paren_inj (pyOct_paren v) (pyOct_paren w) h)
  · intro h
    unfold formatOpenMode at h
    simp only at h
    by_cases hv : v = 0
    · by_cases hw : w = 0
      · rw [hv, hw]
      · subst hv
        rw [if_neg (by simp), if_pos hw, readBits_nil.2 rfl] at h
        cases h
    · by_cases hw : w = 0
      · subst hw
        rw [if_pos hv, if_neg (by simp), readBits_nil.2 rfl] at h
        cases h
      · rw [if_pos hv, if_pos hw] at h
        exact pyOct_inj h
  · have hne : ∀ u, u ≠ 0 → ∃ x, formatCloneFlags signames u = x ++ '(' :: pyDec u ++ [')'] := by
      intro u hu
      unfold formatCloneFlags
      have hn : cloneFlagNames signames u ≠ [] := by
        unfold cloneFlagNames
        simp only
        split
        · simp
        · intro h; exact hu (readBits_nil.1 h)
      cases hc : cloneFlagNames signames u with
      | nil => exact absurd hc hn
      | cons b bits =>
        refine ⟨'<' :: joinBar (b :: bits) ++ "> ".toList, ?_⟩
        simp
    have h0 : formatCloneFlags signames 0 = ['0'] := by
      have : cloneFlagNames signames 0 = [] := by
        unfold cloneFlagNames
        simp only
        rw [if_neg (by simp), readBits_nil.2 rfl]
      unfold formatCloneFlags
      rw [this]
      decide +kernel
    have hz : ∀ u, u ≠ 0 → formatCloneFlags signames 0 ≠ formatCloneFlags signames u := by
      intro u hu h
      obtain ⟨x, hx⟩ := hne u hu
      rw [h0, hx] at h
      have := congrArg List.getLast? h
      rw [List.getLast?_append] at this
      cases this
    intro h
    by_cases hv : v = 0
    · by_cases hw : w = 0
      · rw [hv, hw]
      · rw [hv] at h; exact absurd h (hz w hw)
    · by_cases hw : w = 0
      · rw [hw] at h; exact absurd h.symm (hz v hv)
      · obtain ⟨x, hx⟩ := hne v hv
        obtain ⟨y, hy⟩ := hne w hw
        rw [hx, hy] at h
        exact pyDec_inj (paren_inj (pyDec_paren v) (pyDec_paren w) h)

/-- mmap and access: names shown are set in the value, every constant that is set is shown, and the number is the value. -/
theorem C56_prot (v : Nat) (hv : v ≠ 0) : ∃ texts num, formatMmapProt v = '<' :: ['|'].intercalate texts ++ "> (".toList ++ num ++ [')'] ∧
    decNumber num = some v ∧ (∀ t ∈ texts, ShownFlag kernelProt v t) ∧
    (∀ name m, (name, m) ∈ kernelProt → v &&& m = m → name ∈ texts) := by
  refine ⟨readBits v mmapProtBitmask, pyDec v, formatBits_text hv _, decNumber_pyDec v, fun t ht => readBits_shown
    (single_of 32 (by decide +kernel)) ht, fun name m hm hs => complete_of 32 (by decide +kernel) hm hs⟩

example := C56_prot 5 (by decide)

theorem C56_access (v : Nat) (hv : v ≠ 0) : ∃ texts num, formatAccessMode v = '<' :: ['|'].intercalate texts ++ "> (".toList ++ num ++ [')'] ∧
    decNumber num = some v ∧ (∀ t ∈ texts, ShownFlag kernelAccess v t) ∧
    (∀ name m, (name, m) ∈ kernelAccess → v &&& m = m → name ∈ texts) := by
  refine ⟨readBits v accessModeBitmask, pyDec v, formatBits_text hv _, decNumber_pyDec v, fun t ht => readBits_shown
    (single_of 32 (by decide +kernel)) ht, fun name m hm hs => complete_of 32 (by decide +kernel) hm hs⟩

example := C56_access 13 (by decide)

/-- Nothing set: `PROT_NONE` and `F_OK`. -/
theorem C56_none : formatMmapProt 0 = "PROT_NONE".toList ∧ formatAccessMode 0 = "F_OK".toList ∧ formatOpenFlags 0 = "O_RDONLY".toList := by
  decide +kernel

/-- clone: the first text is the name of the signal in the low byte if there is one, the others are as for mmap. -/
theorem C56_clone (signames : List (Nat × Str)) (v : Nat) (hv : v ≠ 0) : ∃ sig texts num,
    formatCloneFlags signames v = '<' :: ['|'].intercalate (sig ++ texts) ++ "> (".toList ++ num ++ [')'] ∧
    decNumber num = some v ∧ (v % 256 = 0 → sig = []) ∧ (v % 256 ≠ 0 → sig = [signalName signames (v % 256)]) ∧
    (∀ t ∈ texts, ShownFlag kernelClone v t) ∧ (∀ name m, (name, m) ∈ kernelClone → v &&& m = m → name ∈ texts) := by
  have hand : v &&& 0xFF = v % 256 := Nat.and_two_pow_sub_one_eq_mod v 8
  refine ⟨if v % 256 ≠ 0 then [signalName signames (v % 256)] else [], readBits v cloneFlagsBitmask, pyDec v, ?_, decNumber_pyDec v,
    fun h => if_neg (by simpa using h), fun h => if_pos h, fun t ht => readBits_shown (single_of 32 (by decide +kernel)) ht, ?_⟩
  · have hc : cloneFlagNames signames v = (if v % 256 ≠ 0 then [signalName signames (v % 256)] else []) ++ readBits v cloneFlagsBitmask := by
      unfold cloneFlagNames
      simp only
      rw [hand]
      split <;> rfl
    have hn : cloneFlagNames signames v ≠ [] := by
      rw [hc]
      intro h
      exact hv (readBits_nil.1 (List.append_eq_nil_iff.1 h).2)
    rw [← hc]
    unfold formatCloneFlags
    cases h : cloneFlagNames signames v with
    | nil => exact absurd h hn
    | cons => rfl
  · intro name m hm hs
    obtain ⟨r, texts, _, _, h⟩ := readBits_list cloneFlagsBitmask v (by unfold DisjointMasks; decide +kernel)
    rw [h]
    apply List.mem_append_left
    refine List.mem_map.2 ⟨(m, name), List.mem_filter.2 ⟨?_, ?_⟩, rfl⟩
    · have : ∀ e ∈ kernelClone, (e.2, e.1) ∈ cloneFlagsBitmask := by decide +kernel
      exact this _ hm
    · have : ∀ e ∈ kernelClone, e.2 ≠ 0 := by decide +kernel
      have := this _ hm
      simp only [decide_eq_true_eq]
      rw [hs]; exact this

example := C56_clone linuxSignames 0x1200011 (by decide)

/-- open mode: the octal number. -/
theorem C56_mode (v : Nat) (hv : v ≠ 0) : ∃ t, octNumber t = some v ∧ formatOpenMode v = '0' :: 'o' :: t := by
  refine ⟨octDigits v [], octNumber_octDigits v, ?_⟩
  unfold formatOpenMode
  exact if_pos hv

example := C56_mode 0o644 (by decide)

/-- open flags: `O_RDONLY` is shown exactly when neither access bit is set, and the other names shown are set, with the constants of
x86. Two names are shown for a part of their bits (see `C56_refuted`), so the bits 12 (`O_DSYNC`) and 22 (`__O_TMPFILE`) must come with
the bits 20 and 16. -/
theorem C56_open_partial (v : Nat) (hv : v ≠ 0) (hsync : v.testBit 12 = true → v.testBit 20 = true)
    (htmp : v.testBit 22 = true → v.testBit 16 = true) : ∃ acc texts num,
    formatOpenFlags v = ['|'].intercalate (acc ++ texts) ++ " (0o".toList ++ num ++ [')'] ∧ octNumber num = some v ∧
    (v % 4 = 0 → acc = ["O_RDONLY".toList]) ∧ (v % 4 ≠ 0 → acc = []) ∧ (∀ t ∈ texts, ShownFlag kernelOpen v t) ∧
    (∀ name m, (name, m) ∈ kernelOpen → v &&& m = m → name ∈ texts) := by
  refine ⟨if v % 4 = 0 then ["O_RDONLY".toList] else [], readBits v openFlagsBitmask, octDigits v [], ?_, octNumber_octDigits v,
    fun h => if_pos h, fun h => if_neg h, fun t ht => open_shown hsync htmp ht, fun name m hm hs => complete_of 32 (by decide +kernel) hm hs⟩
  unfold formatOpenFlags
  simp only
  rw [if_pos hv, openFlagNames_eq hv, List.append_assoc, List.append_assoc, List.append_assoc, List.append_assoc]
  rfl

example := C56_open_partial 0o2201102 (by decide) (by decide +kernel) (by decide +kernel)

/-- Some names are shown though they are not set. `O_TMPFILE` and `O_SYNC` are shown when only a part of their bits is set; on ARM the
bits 14 to 17 have another order, so `O_DIRECTORY` is shown as `O_DIRECT`. -/
theorem C56_refuted :
    (formatOpenFlags (2 ^ 22) = "O_RDONLY|O_TMPFILE (0o20000000)".toList ∧ ¬ ShownFlag kernelOpen (2 ^ 22) "O_TMPFILE".toList) ∧
    (formatOpenFlags (2 ^ 12) = "O_RDONLY|O_SYNC (0o10000)".toList ∧ ¬ ShownFlag kernelOpen (2 ^ 12) "O_SYNC".toList) ∧
    (formatOpenFlags (2 ^ 14) = "O_RDONLY|O_DIRECT (0o40000)".toList ∧ ("O_DIRECTORY".toList, 2 ^ 14) ∈ kernelOpenArm ∧
      ¬ ShownFlag kernelOpenArm (2 ^ 14) "O_DIRECT".toList) := by
  have key : ∀ (kernel : List (Str × Nat)) (v : Nat) (t : Str), decNumber t = none →
      (kernel.all fun c => !(c.1 == t) || !((v &&& c.2) == c.2)) = true → ¬ ShownFlag kernel v t := by
    rintro kernel v t hd hk (⟨m, hm, hs⟩ | ⟨r, hr, _⟩)
    · have := List.all_eq_true.1 hk _ hm
      simp only [hs, beq_self_eq_true, Bool.not_true, Bool.or_self] at this
      cases this
    · rw [hd] at hr; cases hr
  exact ⟨⟨by decide +kernel, key _ _ _ (by decide +kernel) (by decide +kernel)⟩,
    ⟨by decide +kernel, key _ _ _ (by decide +kernel) (by decide +kernel)⟩,
    ⟨by decide +kernel, by decide +kernel, key _ _ _ (by decide +kernel) (by decide +kernel)⟩⟩

example : formatOpenFlags 0o2201102 = "O_RDWR|O_CREAT|O_TRUNC|O_DIRECTORY|O_CLOEXEC (0o2201102)".toList ∧
    Nat.testBit 0o2201102 12 = false ∧ Nat.testBit 0o2201102 22 = false := by decide +kernel
example : formatCloneFlags [(17, "SIGCHLD".toList)] 0x1200011 = "<SIGCHLD|CLONE_CHILD_CLEARTID|CLONE_CHILD_SETTID|17> (18874385)".toList := by
  decide +kernel

/-! ## C57 — sets in memory -/

/-- What memory holds at `address`. -/
def holds (mem : Nat → Nat) (address : Nat) (bytes : Bytes) : Prop :=
  ∀ i (h : i < bytes.length), (bytes[i]).val = mem (address + i)

private theorem holds_bit {a : Arch} (hb : a.big = false) {mem : Nat → Nat} {address : Nat} {bytes : Bytes} (h : holds mem address bytes) :
    ∀ i ∈ List.range (8 * bytes.length), (bytes.getD (i / 8) 0).val.testBit (i % 8) = inSet a.big a.W mem address i := by
  intro i hi
  have hi : i < 8 * bytes.length := List.mem_range.1 hi
  rw [inSet_little hb]
  have h8 : i / 8 < bytes.length := by omega
  rw [← h (i / 8) h8, List.getD_eq_getElem _ _ h8]

/-- Descriptors of an `fd_set`: exactly the members below `nfds`, in increasing order. Little endian, and `nfds` is at most the size of
the buffer that is read. -/
theorem C57_fds_partial {σ : Type} (a : Arch) (hb : a.big = false) (read : Nat → Nat → Py σ Bytes) (writeAddress : Bool) (address nfds : Nat)
    (s s' : σ) (bytes : Bytes) (mem : Nat → Nat) (hr : read address 128 s = (.ok bytes, s')) (hl : bytes.length = 128)
    (hm : holds mem address bytes) (hn : nfds ≤ 1024) :
    ∃ texts, formatFdSet a read writeAddress address nfds s =
        (.ok ('[' :: [' '].intercalate texts ++ [']'] ++ (if writeAddress then " at ".toList ++ formatAddress a address else [])), s') ∧
      List.Forall₂ (fun i t => decNumber t = some i) ((List.range nfds).filter (inSet a.big a.W mem address)) texts := by
  refine ⟨(bitTexts pyDec bytes).filter fun x => decide (natOfDec x < nfds), ?_, ?_⟩
  · unfold formatFdSet
    rw [show FD_SETSIZE / 8 = 128 from rfl, Py.run_bind_ok hr]
    unfold formatPointer Py.pure
    cases writeAddress <;> simp
  · rw [bitTexts_eq, List.filter_congr (holds_bit hb hm), hl, List.filter_map]
    have : (fun x => decide (natOfDec x < nfds)) ∘ pyDec = fun i => decide (i < nfds) := by
      funext i
      simp only [Function.comp, natOfDec_pyDec]
    rw [this, filter_range (show nfds ≤ 8 * 128 by omega)]
    exact forall₂_map pyDec (fun i => decNumber_pyDec i) _

-- descriptor 56 of 64
set_option maxRecDepth 2000 in
example := C57_fds_partial (σ := Unit) ⟨true, false⟩ rfl (fun address size => Py.pure ((List.range size).map fun i => if address + i = 4103 then 1 else 0)) false
  4096 64 () () ((List.range 128).map fun i => if 4096 + i = 4103 then 1 else 0) (fun p => if p = 4103 then 1 else 0) rfl (by decide)
  (by unfold holds; decide +kernel) (by decide)

/-- Signals of a `sigset_t`: exactly the members, in increasing order; bit `i` is signal `i + 1`. Little endian. -/
theorem C57_signals_partial {σ : Type} (a : Arch) (hb : a.big = false) (signames : List (Nat × Str)) (read : Nat → Nat → Py σ Bytes)
    (writeAddress : Bool) (address size : Nat) (s s' : σ) (bytes : Bytes) (mem : Nat → Nat) (hr : read address size s = (.ok bytes, s'))
    (hl : bytes.length = size) (hm : holds mem address bytes) :
    formatSigset a signames read writeAddress address size s =
      (.ok ("<sigset=(".toList ++ [' '].intercalate
          (((List.range (8 * size)).filter (inSet a.big a.W mem address)).map fun i => signalName signames (i + 1)) ++ ")>".toList ++
        (if writeAddress then " at ".toList ++ formatAddress a address else [])), s') := by
  unfold formatSigset
  rw [show size * 8 / 8 = size by omega, Py.run_bind_ok hr]
  unfold formatPointer Py.pure
  rw [bitTexts_eq, List.filter_congr (holds_bit hb hm), hl]
  cases writeAddress <;> simp

-- the first bit of the second byte: signal 9
example := C57_signals_partial (σ := Unit) ⟨true, false⟩ rfl linuxSignames (fun _ _ => Py.pure [0, 1, 0, 0, 0, 0, 0, 0]) false 4096 8 () ()
  [0, 1, 0, 0, 0, 0, 0, 0] (fun p => if p = 4097 then 1 else 0) rfl rfl (by unfold holds; decide +kernel)

/-- Memory of the next theorems: descriptor 1024 is in the set; then a big endian word with descriptor 0. -/
def fdMemory (k : Nat) (p : Nat) : Nat := if p = 4096 + k then 1 else 0

/-- The bytes of `fdMemory`. -/
def fdRead (k : Nat) (address size : Nat) : Py Unit Bytes :=
  Py.pure ((List.range size).map fun i => if address + i = 4096 + k then 1 else 0)

private theorem fdRead_holds (k : Nat) : ∃ bytes, fdRead k 4096 128 () = (.ok bytes, ()) ∧ bytes.length = 128 ∧ holds (fdMemory k) 4096 bytes := by
  refine ⟨_, rfl, by simp, ?_⟩
  intro i h
  simp only [List.getElem_map, List.getElem_range, fdMemory]
  split <;> rfl

/-- A descriptor from 1024 on is in the set and below `nfds` but is not shown; and on a big endian machine the descriptor shown is not
the one of the set. -/
theorem C57_refuted :
    (∃ bytes, fdRead 128 4096 128 () = (.ok bytes, ()) ∧ bytes.length = 128 ∧ holds (fdMemory 128) 4096 bytes ∧
      inSet false 8 (fdMemory 128) 4096 1024 = true ∧
      formatFdSet ⟨true, false⟩ (fdRead 128) false 4096 2048 () = (.ok "[]".toList, ())) ∧
    (∃ bytes, fdRead 7 4096 128 () = (.ok bytes, ()) ∧ bytes.length = 128 ∧ holds (fdMemory 7) 4096 bytes ∧
      inSet true 8 (fdMemory 7) 4096 0 = true ∧ inSet true 8 (fdMemory 7) 4096 56 = false ∧
      formatFdSet ⟨true, true⟩ (fdRead 7) false 4096 64 () = (.ok "[56]".toList, ())) := by
  obtain ⟨b1, h1, h2, h3⟩ := fdRead_holds 128
  obtain ⟨c1, g1, g2, g3⟩ := fdRead_holds 7
  exact ⟨⟨b1, h1, h2, h3, by decide, by decide +kernel⟩, ⟨c1, g1, g2, g3, by decide, by decide, by decide +kernel⟩⟩

example : formatFdSet ⟨true, false⟩ (fdRead 7) false 4096 64 () = (.ok "[56]".toList, ()) ∧ inSet false 8 (fdMemory 7) 4096 56 = true := by
  decide +kernel

/-! ## C58 — results of syscalls -/

/-- The text starts with the signed value; then comes the errno name and message exactly for `-e` with `e` known, nothing for 0 to 9, and
else the register in hexadecimal. -/
theorem C58_result (a : Arch) (errorcode : Nat → Option Str) (strerror : Nat → Str) (u : Nat) :
    ∃ r t rest, IsSigned (8 * a.W - 1) u r ∧ decInt t = some r ∧ resultText a errorcode strerror false u = t ++ rest ∧
      (∀ (e : Nat) name, r = -(e : Int) → 0 < e → errorcode e = some name → rest = ' ' :: name ++ " (".toList ++ strerror e ++ [')']) ∧
      ((∀ (e : Nat) name, r = -(e : Int) → 0 < e → errorcode e ≠ some name) →
        (0 ≤ r ∧ r ≤ 9 → rest = []) ∧
        (¬ (0 ≤ r ∧ r ≤ 9) → ∃ h, hexLiteral h = some u ∧ rest = " (".toList ++ h ++ [')'])) := by
  have hs : IsSigned (8 * a.W - 1) u (ulong2long a u) := ((Props.C01_word_aliases a u (ulong2long a u)).2.1).1 rfl
  refine ⟨ulong2long a u, pyDecInt (ulong2long a u), (resultText a errorcode strerror false u).drop (pyDecInt (ulong2long a u)).length,
    hs, pyDecInt_decInt _, ?_, ?_, ?_⟩
  · unfold resultText
    simp only [Bool.false_eq_true, if_false]
    split
    · rw [List.append_assoc, List.append_assoc, List.append_assoc, List.drop_left]
    · split
      · rw [List.append_assoc, List.append_assoc, List.drop_left]
      · simp
  · intro e name hr he hn
    unfold resultText
    simp only [Bool.false_eq_true, if_false]
    rw [hr, if_pos (by omega), Int.neg_neg, Int.toNat_natCast, hn]
    simp only [List.append_assoc]
    rw [List.drop_left]
  · intro hno
    have hnone : (if ulong2long a u < 0 then errorcode (-ulong2long a u).toNat else none) = none := by
      split
      · rename_i hneg
        cases he : errorcode (-ulong2long a u).toNat with
        | none => rfl
        | some name => exact absurd he (hno _ name (by omega) (by omega))
      · rfl
    have ht : resultText a errorcode strerror false u =
        if ¬ (0 ≤ ulong2long a u ∧ ulong2long a u ≤ 9) then pyDecInt (ulong2long a u) ++ " (".toList ++ formatWordHex a u ++ [')']
        else pyDecInt (ulong2long a u) := by
      unfold resultText
      simp only [Bool.false_eq_true, if_false]
      rw [hnone]
    rw [ht]
    constructor
    · intro h
      rw [if_neg (by simpa using h)]
      simp
    · intro h
      rw [if_pos h]
      have hu : u ≠ 0 := by
        rintro rfl
        apply h
        obtain ⟨h1, h2, k, hk⟩ := hs
        have hp : (0 : Int) < 2 ^ (8 * a.W - 1 + 1) := Int.pow_pos (by omega)
        have h0 : ulong2long a ((0 : Nat) : Int) = 0 := ((Props.C01_word_aliases a _ _).2.1).2
          ⟨by have : (0 : Int) < 2 ^ (8 * a.W - 1) := Int.pow_pos (by omega); omega, Int.pow_pos (by omega), 0, by simp⟩
        rw [h0]; omega
      have hl := Props.C03_lossless a u hu
      unfold formatAddress at hl
      rw [if_pos hu] at hl
      refine ⟨formatWordHex a u, hl, ?_⟩
      rw [List.append_assoc, List.append_assoc, List.drop_left, List.append_assoc]

/-- The text determines the register, and the results of pointer type likewise. -/
theorem C58_injective (a : Arch) (errorcode : Nat → Option Str) (strerror : Nat → Str) (pointer : Bool) (u w : Nat)
    (hu : u < 2 ^ (8 * a.W)) (hw : w < 2 ^ (8 * a.W))
    (h : resultText a errorcode strerror pointer u = resultText a errorcode strerror pointer w) : u = w := by
  cases pointer with
  | true =>
    unfold resultText at h
    simp only [if_true] at h
    exact Props.C03_injective a u w h
  | false =>
    have key : ∀ u, ∃ rest, (rest = [] ∨ rest.head? = some ' ') ∧ resultText a errorcode strerror false u = pyDecInt (ulong2long a u) ++ rest := by
      intro u
      unfold resultText
      simp only [Bool.false_eq_true, if_false]
      split
      · exact ⟨_, Or.inr rfl, by rw [List.append_assoc, List.append_assoc, List.append_assoc]⟩
      · split
        · exact ⟨_, Or.inr rfl, by rw [List.append_assoc, List.append_assoc]⟩
        · exact ⟨[], Or.inl rfl, by simp⟩
    obtain ⟨r, h1, h2⟩ := key u
    obtain ⟨r', h1', h2'⟩ := key w
    rw [h2, h2'] at h
    have he := pyDecInt_inj (space_inj (pyDecInt_space _) (pyDecInt_space _) h1 h1' h)
    obtain ⟨_, _, k, hk⟩ := ((Props.C01_word_aliases a u (ulong2long a u)).2.1).1 rfl
    obtain ⟨_, _, k', hk'⟩ := ((Props.C01_word_aliases a w (ulong2long a w)).2.1).1 rfl
    rw [he] at hk
    have hu' : (u : Int) < 2 ^ (8 * a.W) := by exact_mod_cast hu
    have hw' : (w : Int) < 2 ^ (8 * a.W) := by exact_mod_cast hw
    rcases a with ⟨_ | _, big⟩
    · have e1 : (2 : Int) ^ (8 * (⟨false, big⟩ : Arch).W - 1 + 1) = 4294967296 := rfl
      have e2 : (2 : Int) ^ (8 * (⟨false, big⟩ : Arch).W) = 4294967296 := rfl
      rw [e1] at hk hk'
      rw [e2] at hu' hw'
      omega
    · have e1 : (2 : Int) ^ (8 * (⟨true, big⟩ : Arch).W - 1 + 1) = 18446744073709551616 := rfl
      have e2 : (2 : Int) ^ (8 * (⟨true, big⟩ : Arch).W) = 18446744073709551616 := rfl
      rw [e1] at hk hk'
      rw [e2] at hu' hw'
      omega

example : resultText ⟨true, false⟩ (fun e => if e = 2 then some "ENOENT".toList else none) (fun _ => "No such file or directory".toList) false
    (2 ^ 64 - 2) = "-2 ENOENT (No such file or directory)".toList := by decide +kernel
example : resultText ⟨true, false⟩ (fun e => if e = 2 then some "ENOENT".toList else none) (fun _ => []) false 4096 =
    "4096 (0x0000000000001000)".toList := by decide +kernel
example : resultText ⟨true, false⟩ (fun e => if e = 2 then some "ENOENT".toList else none) (fun _ => []) false 3 = "3".toList := by
  decide +kernel

/-! ## C67 — calls -/

/-- The arguments in order, each with its name and type as far as wanted, comma separated; only trailing empty ones are dropped. -/
theorem C67_call (o : CallOptions) (restype name : Str) (args : List CallArg) :
    ∃ shown kept head, List.Forall₂ (fun g t => ArgShown o.writeTypes o.writeArgname g.type g.name g.text t) args shown ∧
      TrailingDropped shown kept ∧ callFormat o restype name args = head ++ name ++ '(' :: (", ".toList).intercalate kept ++ [')'] ∧
      ((restype = [] ∨ o.writeTypes = false) → head = []) ∧ (restype ≠ [] → o.writeTypes = true → head = restype ++ [' ']) := by
  have harg : ∀ g, ArgShown o.writeTypes o.writeArgname g.type g.name g.text (argFormat o g) := by
    intro g
    obtain ⟨types, names⟩ := o
    unfold argFormat
    simp only
    by_cases hn : names = true ∧ g.name ≠ []
    · rw [if_pos hn]
      by_cases ht : types = true ∧ g.type ≠ []
      · rw [if_pos ht]
        refine ⟨g.type ++ ' ' :: g.name ++ ['='], by simp, ?_, ?_, fun _ _ _ _ => rfl, ?_⟩
        · rintro (h | h)
          · rw [ht.1] at h; cases h
          · exact absurd h ht.2
        · rintro (h | h)
          · rw [ht.1] at h; cases h
          · exact absurd h ht.2
        · rintro _ _ (h | h)
          · rw [hn.1] at h; cases h
          · exact absurd h hn.2
      · rw [if_neg ht]
        refine ⟨g.name ++ ['='], by simp, ?_, fun _ _ _ => rfl, fun h1 h2 => absurd ⟨h1, h2⟩ ht, fun h1 h2 => absurd ⟨h1, h2⟩ ht⟩
        rintro _ (h | h)
        · rw [hn.1] at h; cases h
        · exact absurd h hn.2
    · rw [if_neg hn]
      by_cases ht : types = true ∧ g.type ≠ []
      · rw [if_pos ht]
        refine ⟨'(' :: g.type ++ [')'], by simp, ?_, fun _ h1 h2 => absurd ⟨h1, h2⟩ hn, fun _ _ h1 h2 => absurd ⟨h1, h2⟩ hn, fun _ _ _ => rfl⟩
        rintro (h | h)
        · rw [ht.1] at h; cases h
        · exact absurd h ht.2
      · rw [if_neg ht]
        exact ⟨[], rfl, fun _ _ => rfl, fun _ h1 h2 => absurd ⟨h1, h2⟩ hn, fun h1 h2 => absurd ⟨h1, h2⟩ ht, fun h1 h2 => absurd ⟨h1, h2⟩ ht⟩
  have hall : List.Forall₂ (fun g t => ArgShown o.writeTypes o.writeArgname g.type g.name g.text t) args (args.map (argFormat o)) := by
    induction args with
    | nil => exact .nil
    | cons g args ih => exact .cons (harg g) ih
  refine ⟨args.map (argFormat o), dropEmpty (args.map (argFormat o)), if restype ≠ [] ∧ o.writeTypes = true then restype ++ [' '] else [],
    hall, dropEmpty_spec _, ?_, ?_, fun h1 h2 => if_pos ⟨h1, h2⟩⟩
  · unfold callFormat
    simp only
    split <;> simp
  · rintro (h | h)
    · exact if_neg fun hc => hc.1 h
    · exact if_neg fun hc => by rw [hc.2] at h; cases h

example : callFormat ⟨true, true⟩ "long".toList "open".toList
    [⟨"const char*".toList, "filename".toList, "'x'".toList⟩, ⟨"int".toList, [], "0".toList⟩, ⟨[], [], []⟩] =
    "long open(const char* filename='x', (int)0)".toList := by decide +kernel

/-! ## C68 — arrays of strings -/

/-- The strings of the array in order and then NULL, or, for an array of at least `max` strings, the first `max` and a note. `word` and `str`
are the memory of the traced process; reading may change the state of the tracer but not what is read. -/
theorem C68_array_partial {σ : Type} (a : Arch) (readWord : Nat → Py σ Nat) (cstr : Nat → Py σ Str) (I : σ → Prop) (word : Nat → Nat)
    (str : Nat → Str) (hw : ∀ p s, I s → ∃ s', readWord p s = (.ok (word p), s') ∧ I s')
    (hs : ∀ q s, I s → ∃ s', cstr q s = (.ok (str q), s') ∧ I s') (max address : Nat) (ha : address ≠ 0) (hm : 1 ≤ max)
    (ptrs : List Nat) (hp : PointerArray a.W word address ptrs) (fuel : Nat) (hf : max < fuel) (s : σ) (hI : I s) :
    ∃ s' texts, readCStringArray a readWord cstr false max fuel address s = (.ok ("<(".toList ++ (", ".toList).intercalate texts ++ ")>".toList), s') ∧
      (ptrs.length < max → texts = ptrs.map str ++ [str 0]) ∧
      (max ≤ ptrs.length → ∃ num, decNumber num = some max ∧
        texts = (ptrs.take max).map str ++ ["(... more than ".toList ++ num ++ " strings ...)".toList]) := by
  obtain ⟨h1, h2, h3⟩ := hp
  have run : ∀ texts s', cstrArrayLoop a readWord cstr max fuel address 0 s = (.ok texts, s') →
      readCStringArray a readWord cstr false max fuel address s = (.ok ("<(".toList ++ (", ".toList).intercalate texts ++ ")>".toList), s') := by
    intro texts s' h
    unfold readCStringArray
    rw [if_neg ha, Py.run_bind_ok h]
    rfl
  by_cases hlt : ptrs.length < max
  · obtain ⟨s', e, _⟩ := (cstrArray_loop hw hs max ptrs fuel address 0 s hI h1 h2).1 (by omega) (by omega) h3
    exact ⟨s', _, run _ _ e, fun _ => rfl, fun h => by omega⟩
  · have hlen : (ptrs.take max).length = max := by rw [List.length_take]; omega
    obtain ⟨s', e, _⟩ := (cstrArray_loop hw hs max (ptrs.take max) fuel address 0 s hI (fun p hp => h1 p (List.mem_of_mem_take hp))
      (fun i h => by rw [List.getElem_take]; exact h2 i (by omega))).2 (by omega) (by omega) (by omega)
    exact ⟨s', _, run _ _ e, fun h => by omega, fun _ => ⟨pyDec max, decNumber_pyDec max, rfl⟩⟩

/-- Reading ends after `max` strings whatever the memory holds. -/
theorem C68_terminates {σ : Type} (a : Arch) (readWord : Nat → Py σ Nat) (cstr : Nat → Py σ Str)
    (hw : ∀ p s, (readWord p s).1 ≠ .error .diverge) (hs : ∀ q s, (cstr q s).1 ≠ .error .diverge) (writeAddress : Bool) (max address fuel : Nat)
    (hf : max < fuel) (s : σ) : (readCStringArray a readWord cstr writeAddress max fuel address s).1 ≠ .error .diverge := by
  unfold readCStringArray
  split
  · intro h; cases h
  · intro h
    cases e : cstrArrayLoop a readWord cstr max fuel address 0 s with
    | mk r s' =>
    cases r with
    | error x =>
      rw [Py.run_bind_error e] at h
      injection h with h
      exact cstrArray_ends hw hs max fuel address 0 s (by omega) (by omega) (by rw [e, h])
    | ok l => rw [Py.run_bind_ok e] at h; cases h

/-- An array at 4096 of two strings. -/
def twoWords (p : Nat) : Nat := if p = 4096 then 10 else if p = 4104 then 20 else 0

-- two strings, shown entirely or cut after the first
example := C68_array_partial (σ := Unit) ⟨true, false⟩ (fun p => Py.pure (twoWords p)) (fun q => Py.pure (pyDec q)) (fun _ => True) twoWords pyDec
  (fun _ s _ => ⟨s, rfl, trivial⟩) (fun _ s _ => ⟨s, rfl, trivial⟩) 3 4096 (by decide) (by decide) [10, 20]
  ⟨by decide, by decide +kernel, by decide +kernel⟩ 10 (by decide) () trivial

example := C68_terminates (σ := Unit) ⟨true, false⟩ (fun p => Py.pure (twoWords p)) (fun q => Py.pure (pyDec q)) (fun p s => by simp [Py.pure])
  (fun q s => by simp [Py.pure]) true 3 4096 10 (by decide) ()

/-- An array of exactly `max` strings is shown as if there were more; and with `max = 0` one string is shown. -/
theorem C68_refuted :
    PointerArray 8 twoWords 4096 [10, 20] ∧
    readCStringArray (σ := Unit) ⟨true, false⟩ (fun p => Py.pure (twoWords p)) (fun q => Py.pure (pyDec q)) false 2 10 4096 () =
      (.ok "<(10, 20, (... more than 2 strings ...))>".toList, ()) ∧
    readCStringArray (σ := Unit) ⟨true, false⟩ (fun p => Py.pure (twoWords p)) (fun q => Py.pure (pyDec q)) false 0 10 4096 () =
      (.ok "<(10, (... more than 0 strings ...))>".toList, ()) := by
  refine ⟨⟨by decide, ?_, by decide⟩, by decide +kernel, by decide +kernel⟩
  intro i h
  have : i = 0 ∨ i = 1 := by simp at h; omega
  rcases this with rfl | rfl <;> rfl

example : readCStringArray (σ := Unit) ⟨true, false⟩ (fun p => Py.pure (twoWords p)) (fun q => Py.pure (pyDec q)) false 3 10 4096 () =
      (.ok "<(10, 20, 0)>".toList, ()) := by decide +kernel

end PT
