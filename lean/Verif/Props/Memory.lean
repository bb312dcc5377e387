import Verif.Lemmas.CString

/-! Property theorems C05–C13: tracee memory accesses of `ptrace/debugger/process.py`. -/

namespace PT.Props
open PT

/-- A kernel that refuses nothing, for examples: big endian 32 bit host. -/
def exKernel : Kernel := ⟨⟨false, true⟩, fun _ _ => 0, fun _ _ => 0, fun _ => 0, fun _ _ n => .count n⟩
/-- Memory full of 0xff: every word is -1. -/
def exOnes : MemSt := { mem := fun _ => 255 }

/-! ## C05 — word-by-word reads -/

/-- A result of the PTRACE_PEEKTEXT path is exactly the requested range. -/
theorem C05_exact (k : Kernel) (a n : Nat) (s : MemSt) (d : Bytes)
    (h : (readBytesPeek k a n s).1 = .ok d) : Spec.IsRange s.mem a n d := by
  obtain ⟨_, hr⟩ := readBytesPeek_run k a n s
  rw [isRange_iff]
  rcases hr.outcome with h1 | ⟨_, _, _, _, h1⟩
  · rw [h1] at h; injection h with h; exact h.symm
  · rw [h1] at h; cases h

example := C05_exact exKernel 3 6 exOnes [255, 255, 255, 255, 255, 255] (by decide +kernel)

/-- It succeeds when every aligned word that touches the range can be peeked. -/
theorem C05_succeeds (k : Kernel) (a n : Nat) (s : MemSt) (hn : 0 < n)
    (hp : ∀ log w, w % k.arch.W = 0 → w < a + n → a < w + k.arch.W → k.peekErr log w = 0) :
    ∃ d, (readBytesPeek k a n s).1 = .ok d :=
  ⟨_, readBytesPeek_ok k a n s (fun log w h1 h2 h3 => hp log w h1 (by omega) h3)⟩

-- only the words 0, 4 and 8 can be read
example := C05_succeeds { exKernel with peekErr := fun _ w => if w < 12 then 0 else 5 } 3 6 exOnes (by decide +kernel)
  (fun _ w _ h _ => if_pos (by omega))

/-- Otherwise it raises `PtraceError` with the errno of the failing request, which was made for an aligned
word touching the range. -/
theorem C05_raises (k : Kernel) (a n : Nat) (s : MemSt) (e : Exc) (hn : 0 < n)
    (h : (readBytesPeek k a n s).1 = .error e) :
    ∃ log w, w % k.arch.W = 0 ∧ w < a + n ∧ a < w + k.arch.W ∧ k.peekErr log w ≠ 0 ∧
      e = .ptrace (some (k.peekErr log w)) := by
  obtain ⟨_, hr⟩ := readBytesPeek_run k a n s
  rcases hr.outcome with h1 | ⟨w, rest, h1, h2, h3⟩
  · rw [h1] at h; cases h
  · obtain ⟨w', e1, e2, e3, e4⟩ := hr.touch (.peek w) (by rw [h1]; simp)
    injection e1 with e1; subst e1
    rw [h3] at h; injection h with h
    exact ⟨_, w, e2, by omega, e4, h2, h.symm⟩

-- the word 8 cannot be read
example := C05_raises { exKernel with peekErr := fun _ w => if w = 8 then 5 else 0 } 3 6 exOnes (.ptrace (some 5)) (by decide +kernel)
  (by decide +kernel)

/-- Whatever happens, the tracee's memory is untouched and only PEEK requests for aligned words were made;
when it returns none of these requests failed. -/
theorem C05_reads_only (k : Kernel) (a n : Nat) (s : MemSt) :
    (readBytesPeek k a n s).2.mem = s.mem ∧
    ∃ entries, (readBytesPeek k a n s).2.log = entries ++ s.log ∧
      (∀ x ∈ entries, ∃ w, x = .peek w ∧ w % k.arch.W = 0) ∧
      ∀ d, (readBytesPeek k a n s).1 = .ok d →
        ∀ pre w rest, entries = pre ++ .peek w :: rest → k.peekErr (rest ++ s.log) w = 0 := by
  obtain ⟨entries, hr⟩ := readBytesPeek_run k a n s
  refine ⟨by rw [hr.state], entries, by rw [hr.state], ?_, ?_⟩
  · intro x hx
    obtain ⟨w, h1, h2, _⟩ := hr.touch x hx
    exact ⟨w, h1, h2⟩
  · intro d hd
    rcases hr.outcome with h1 | ⟨_, _, _, _, h1⟩
    · exact hr.clean h1
    · rw [h1] at hd; cases hd

example : (readBytesPeek exKernel 3 6 exOnes).1 = .ok [255, 255, 255, 255, 255, 255] :=
  readBytesPeek_ok exKernel 3 6 exOnes (fun _ _ _ _ _ => rfl)
-- the third word is not readable: the read fails with EIO
example : ∃ e, (readBytesPeek { exKernel with peekErr := fun _ w => if w = 8 then 5 else 0 } 8 6 exOnes).1
    = .error e := readBytesPeek_first_err _ 8 6 exOnes (by decide) (by decide)

/-! ## C06 — writes -/

/-- A `writeBytes` that returns has written exactly `d` at `a` and nothing else. -/
theorem C06_exact (k : Kernel) (a : Nat) (d : Bytes) (s : MemSt)
    (h : (writeBytes k a d s).1 = .ok ()) : Spec.Written s.mem a d (writeBytes k a d s).2.mem := by
  obtain ⟨j, _, h2, h3, _⟩ := (writeBytes_run k a d s).mem
  rw [written_iff, h2, h3 h, List.take_length]

example := C06_exact exKernel 3 [1, 2, 3, 4, 5, 6] exOnes (by decide +kernel)

/-- It does return when no word of the range is refused and `/proc/pid/mem` does not cut words. -/
theorem C06_succeeds (k : Kernel) (a : Nat) (d : Bytes) (s : MemSt) (hd : d ≠ [])
    (hb : a + d.length < 2 ^ 63)
    (hk : ∀ log w, w % k.arch.W = 0 → w < a + d.length → a < w + k.arch.W →
      k.peekErr log w = 0 ∧ k.pokeErr log w = 0
      ∧ ∃ c, k.readReply log w k.arch.W = .count c ∧ (c = 0 ∨ k.arch.W ≤ c)) :
    (writeBytes k a d s).1 = .ok () := writeBytes_ok k a d s hd hb hk

-- an unaligned write over three words
example : (writeBytes exKernel 3 [1, 2, 3, 4, 5, 6] exOnes).1 = .ok () :=
  C06_succeeds exKernel 3 _ exOnes (by decide) (by decide)
    (fun _ _ _ _ _ => ⟨rfl, rfl, _, rfl, Or.inr (Nat.le_refl _)⟩)

/-! ## C07 — round trips -/

/-- Reading back what was written, with any kernel behaviour in between that leaves memory alone. -/
theorem C07_read_back (k k' : Kernel) (a : Nat) (d d' : Bytes) (s s' : MemSt)
    (hw : (writeBytes k a d s).1 = .ok ()) (hs : s'.mem = (writeBytes k a d s).2.mem)
    (hr : (readBytes k' a d.length s').1 = .ok d') (hl : d'.length = d.length) : d' = d := by
  obtain ⟨_, h2⟩ := (readBytes_readRun k' a d.length s').result d' hr
  have h1 := (written_iff _ _ _ _).1 (C06_exact k a d s hw)
  rw [h2, hl, hs, h1, bytesAt_storeBytes]

example := C07_read_back exKernel exKernel 3 [1, 2, 3, 4, 5, 6] [1, 2, 3, 4, 5, 6] exOnes
  (writeBytes exKernel 3 [1, 2, 3, 4, 5, 6] exOnes).2 (by decide +kernel) rfl (by decide +kernel) rfl

/-- Writing back bytes that were just read changes nothing, even if the write fails halfway. -/
theorem C07_write_back (k k' : Kernel) (a n : Nat) (d : Bytes) (s s' : MemSt)
    (hr : (readBytes k a n s).1 = .ok d) (hs : s'.mem = s.mem) :
    (writeBytes k' a d s').2.mem = s.mem := by
  obtain ⟨h1, h2⟩ := (readBytes_readRun k a n s).result d hr
  obtain ⟨j, h3, h4, _⟩ := (writeBytes_run k' a d s').mem
  rw [h4, hs, h2, bytesAt_take, storeBytes_bytesAt]

example : (readBytes exKernel 5 3 exOnes).1 = .ok [255, 255, 255] :=
  readBytes_ok exKernel 5 3 exOnes (fun _ _ _ _ _ => rfl) (fun _ => ⟨3, rfl, Or.inr (Nat.le_refl _)⟩) (by decide)

/-! ## C08 — failing writes -/

/-- In every outcome memory is the old one with some prefix of the data written (all of it on return,
not all of it when an exception is raised). -/
theorem C08_prefix (k : Kernel) (a : Nat) (d : Bytes) (s : MemSt) :
    ∃ j, j ≤ d.length ∧ Spec.Written s.mem a (d.take j) (writeBytes k a d s).2.mem ∧
      ((writeBytes k a d s).1 = .ok () → j = d.length) ∧
      (∀ e, (writeBytes k a d s).1 = .error e → d ≠ [] → j < d.length) := by
  obtain ⟨j, h1, h2, h3, h4⟩ := (writeBytes_run k a d s).mem
  exact ⟨j, h1, (written_iff _ _ _ _).2 h2, h3, h4⟩

/-- The exceptions that can leave `writeBytes`: `PtraceError`; and, unless the peek fallback is in use,
`struct.error` (a short `/proc/pid/mem` reply) or `OverflowError` (address beyond `off_t`). -/
theorem C08_exceptions (k : Kernel) (a : Nat) (d : Bytes) (s : MemSt) (e : Exc)
    (h : (writeBytes k a d s).1 = .error e) :
    (∃ x, e = .ptrace x) ∨ ((e = .overflow ∨ e = .struct) ∧ s.fallback = false) := by
  rcases (writeBytes_run k a d s).error e h with h | ⟨h, h'⟩ | ⟨h, h'⟩
  · exact Or.inl h
  · exact Or.inr ⟨Or.inl h, h'⟩
  · exact Or.inr ⟨Or.inr h, h'⟩

/-- The same kernel, with the word at 4 write protected. -/
def exKernelRO : Kernel := { exKernel with pokeErr := fun _ w => if w = 4 then 5 else 0 }

-- the second word cannot be written: the first word of data is in place, the rest is not
example : let r := writeBytes exKernelRO 0 [1, 2, 3, 4, 5, 6, 7, 8] exOnes
    r.1 = .error (.ptrace (some 5)) ∧ r.2.mem 3 = 4 ∧ r.2.mem 4 = 255 := by decide +kernel

/-! ## C09 — reads through /proc/pid/mem -/

/-- Whatever the kernel answers, a result is a prefix of the true content of the range. -/
theorem C09_prefix (k : Kernel) (a n : Nat) (s : MemSt) (d : Bytes)
    (h : (readBytes k a n s).1 = .ok d) : d.length ≤ n ∧ Spec.IsRange s.mem a d.length d := by
  obtain ⟨h1, h2⟩ := (readBytes_readRun k a n s).result d h
  exact ⟨h1, (isRange_iff _ _ _ _).2 h2⟩

-- the kernel delivers two of six bytes
example := C09_prefix { exKernel with readReply := fun _ _ _ => .count 2 } 3 6 exOnes [255, 255] (by decide +kernel)

/-- Reading never changes memory and every exception is `PtraceError`, or `OverflowError` for an address
that does not fit `off_t`. -/
theorem C09_effects (k : Kernel) (a n : Nat) (s : MemSt) :
    (readBytes k a n s).2.mem = s.mem ∧
    ∀ e, (readBytes k a n s).1 = .error e → (∃ x, e = .ptrace x) ∨ (e = .overflow ∧ 2 ^ 63 ≤ a) := by
  have h := readBytes_readRun k a n s
  refine ⟨h.mem, fun e he => ?_⟩
  rcases h.error e he with h | ⟨h, h', _⟩
  · exact Or.inl h
  · exact Or.inr ⟨h, h'⟩

/-- When `/proc/pid/mem` cannot be opened, or gives nothing for a non-empty request, the result is that of
the peek path and the fallback is on from then on. -/
theorem C09_fallback (k : Kernel) (a n : Nat) (s : MemSt) (hn : 0 < n) (ha : a < 2 ^ 63)
    (hs : s.fallback = false)
    (h : (s.memFile = false ∧ k.openErr s.log ≠ 0) ∨
         (s.memFile = true ∧ k.readReply s.log a n = .count 0) ∨
         (s.memFile = false ∧ k.openErr s.log = 0 ∧ k.readReply (.memOpen :: s.log) a n = .count 0)) :
    (readBytes k a n s).2.fallback = true ∧
    ∃ s', s'.mem = s.mem ∧ readBytes k a n s = readBytesPeek k a n s' := by
  have key : ∀ s' : MemSt, s'.fallback = true → (readBytesPeek k a n s').2.fallback = true := by
    intro s' h
    exact (readBytesPeek_readRun k a n s').sticky h
  have hmf : ∀ s' : MemSt, k.readReply s'.log a n = .count 0 →
      readMemFile k a n s' = readBytesPeek k a n { s' with log := .memRead a n :: s'.log, fallback := true } := by
    intro s' h
    unfold readMemFile
    rw [if_neg (by omega)]
    simp only [h]
    rw [if_pos (by simp; omega)]
  unfold readBytes
  rw [if_neg (by simp [hs])]
  rcases h with ⟨h1, h2⟩ | ⟨h1, h2⟩ | ⟨h1, h2, h3⟩
  · rw [if_neg (by simp [h1])]
    dsimp only
    rw [if_pos h2]
    refine ⟨key _ rfl, _, ?_, rfl⟩; rfl
  · rw [if_pos h1, hmf s h2]
    refine ⟨key _ rfl, _, ?_, rfl⟩; rfl
  · rw [if_neg (by simp [h1])]
    dsimp only
    rw [if_neg (by simp [h2]), hmf _ h3]
    refine ⟨key _ rfl, _, ?_, rfl⟩; rfl

-- /proc/pid/mem cannot be opened
example := C09_fallback { exKernel with openErr := fun _ => 13 } 3 6 exOnes (by decide) (by decide) rfl
  (.inl ⟨rfl, by decide⟩)

/-- Memory operations a client may perform. -/
inductive MemOp where
  | read (a n : Nat)
  | write (a : Nat) (d : Bytes)

/-- State after one operation, exceptions included. -/
def MemOp.run (k : Kernel) : MemOp → MemSt → MemSt
  | .read a n, s => (readBytes k a n s).2
  | .write a d, s => (writeBytes k a d s).2

/-- Once the fallback is on it stays on through any history of reads and writes, and from then on every
read is a peek read (so C05 applies to it). -/
theorem C09_sticky (k : Kernel) (ops : List MemOp) (s : MemSt) (hs : s.fallback = true) (a n : Nat) :
    let s' := ops.foldl (fun s op => op.run k s) s
    s'.fallback = true ∧ readBytes k a n s' = readBytesPeek k a n s' := by
  have h : (ops.foldl (fun s op => op.run k s) s).fallback = true := by
    induction ops generalizing s with
    | nil => exact hs
    | cons op ops ih =>
      apply ih
      cases op with
      | read a n => exact (readBytes_readRun k a n s).sticky hs
      | write a d => exact (writeBytes_run k a d s).sticky hs
  refine ⟨h, ?_⟩
  conv_lhs => unfold readBytes
  rw [if_pos h]

-- a kernel that delivers nothing through /proc (SELinux, issue #10): fallback and correct data
example : (readBytes { exKernel with readReply := fun _ _ _ => .count 0 } 5 3 exOnes).1 = .ok [255, 255, 255] :=
  readBytes_ok _ 5 3 exOnes (fun _ _ _ _ _ => rfl) (fun _ => ⟨0, rfl, Or.inl rfl⟩) (by decide)

/-! ## C10 — length of the result -/

/-- The kernel's `/proc/pid/mem` replies are complete or empty. -/
def CompleteReplies (k : Kernel) : Prop :=
  ∀ log a n c, k.readReply log a n = .count c → c = 0 ∨ n ≤ c

/-- The full statement is false: a short reply of the kernel (end of a mapping) is returned as it is. -/
theorem C10_refuted : ¬ ∀ (k : Kernel) (a n : Nat) (s : MemSt) (d : Bytes),
    (readBytes k a n s).1 = .ok d → d.length = n := by
  intro h
  have := h { exKernel with readReply := fun _ _ _ => .count 2 } 0 4 exOnes [255, 255] (by decide)
  exact absurd this (by decide)

theorem fullReads_of_complete {k : Kernel} (hk : CompleteReplies k) (mem : Nat → Byte) (chunk : Nat) :
    FullReads k mem chunk := by
  intro s a d _ h
  have hp : ∀ s', (readBytesPeek k a chunk s').1 = .ok d → d.length = chunk := by
    intro s' h'
    obtain ⟨_, hr⟩ := readBytesPeek_run k a chunk s'
    rcases hr.outcome with h1 | ⟨_, _, _, _, h1⟩
    · rw [h1] at h'; injection h' with h'; rw [← h']; simp
    · rw [h1] at h'; cases h'
  have hm : ∀ s', (readMemFile k a chunk s').1 = .ok d → d.length = chunk := by
    intro s' h'
    unfold readMemFile at h'
    split at h'
    · cases h'
    · dsimp only at h'
      cases hr : k.readReply s'.log a chunk with
      | err e => rw [hr] at h'; cases h'
      | count c =>
        rw [hr] at h'
        dsimp only at h'
        split at h'
        · exact hp _ h'
        · rename_i hz
          injection h' with h'
          rw [← h']
          simp at hz ⊢
          rcases hk _ _ _ _ hr with h | h
          · have := hz (Or.inl h); omega
          · exact Nat.min_eq_right h
  unfold readBytes at h
  split at h
  · exact hp _ h
  · split at h
    · exact hm _ h
    · dsimp only at h
      split at h
      · exact hp _ h
      · exact hm _ h

/-- It holds when the kernel never delivers a short count, in particular always in fallback mode. Missing:
short counts, for which `readBytes` returns fewer bytes. -/
theorem C10_partial (k : Kernel) (a n : Nat) (s : MemSt) (d : Bytes)
    (hk : CompleteReplies k ∨ s.fallback = true) (h : (readBytes k a n s).1 = .ok d) :
    d.length = n := by
  rcases hk with hk | hk
  · exact fullReads_of_complete hk s.mem n s a d rfl h
  · unfold readBytes at h
    rw [if_pos hk] at h
    exact (C05_exact k a n s d h).1

theorem exKernel_complete : CompleteReplies exKernel := fun _ _ _ _ h => by
  injection h with h; exact Or.inr (Nat.le_of_eq h)

example := C10_partial exKernel 5 3 exOnes [255, 255, 255] (.inl exKernel_complete) (by decide +kernel)

/-- Exactly when fewer bytes are returned: the kernel delivered fewer, but at least one, and all it delivered is returned. -/
theorem C10_exact (k : Kernel) (a n : Nat) (s : MemSt) (d : Bytes) (h : (readBytes k a n s).1 = .ok d) :
    d.length = n ∨ ∃ log c, k.readReply log a n = .count c ∧ 0 < c ∧ c < n ∧ d.length = c := by
  have hfile : ∀ u, (readMemFile k a n u).1 = .ok d → d.length = n ∨ ∃ log c, k.readReply log a n = .count c ∧ 0 < c ∧ c < n ∧ d.length = c := by
    intro u hu
    unfold readMemFile at hu
    by_cases hb : 2 ^ 63 ≤ a
    · rw [if_pos hb] at hu; cases hu
    · rw [if_neg hb] at hu
      simp only at hu
      cases hr : k.readReply u.log a n with
      | err e => rw [hr] at hu; cases hu
      | count c =>
        rw [hr] at hu
        simp only [bytesAt_length] at hu
        by_cases h0 : min c n = 0 ∧ n ≠ 0
        · rw [if_pos h0] at hu; exact Or.inl (C05_exact k a n _ d hu).1
        · rw [if_neg h0] at hu
          injection hu with hu
          have hl : d.length = min c n := by rw [← hu, bytesAt_length]
          by_cases hc : c < n
          · exact Or.inr ⟨u.log, c, hr, by omega, hc, by omega⟩
          · exact Or.inl (by omega)
  unfold readBytes at h
  by_cases h1 : s.fallback = true
  · rw [if_pos h1] at h; exact Or.inl (C05_exact k a n s d h).1
  · rw [if_neg h1] at h
    by_cases h2 : s.memFile = true
    · rw [if_pos h2] at h; exact hfile _ h
    · rw [if_neg h2] at h
      simp only at h
      by_cases h3 : k.openErr s.log ≠ 0
      · rw [if_pos h3] at h; exact Or.inl (C05_exact k a n _ d h).1
      · rw [if_neg h3] at h; exact hfile _ h

example := C10_exact { exKernel with readReply := fun _ _ _ => .count 2 } 3 6 exOnes [255, 255] (by decide +kernel)

/-! ## C11 — C strings -/

theorem cstring_of_run {m : Nat → Byte} {a lim : Nat} {s : MemSt} {r : Except Exc (Bytes × Bool) × MemSt}
    (h : CStrRun m a lim s r) (t : Bytes) (b : Bool) (hr : r.1 = .ok (t, b)) :
    t.length ≤ lim ∧ (b = false → Spec.IsCString m a t) ∧
    ∀ w, Spec.IsCString m a w → t <+: w := by
  obtain ⟨h1, h2, h3, h4⟩ := h.str t b hr
  have hg : ∀ i (hi : i < t.length), t[i] = m (a + i) :=
    ((isRange_iff m a t.length t).2 h1).2
  refine ⟨h3, fun hb => ⟨fun i hi => ⟨hg i hi, h2 i hi⟩, h4 hb⟩, ?_⟩
  intro w hw
  have hle : t.length ≤ w.length := by
    by_contra hc
    exact h2 w.length (by omega) hw.2
  have : t = w.take t.length := by
    apply List.ext_getElem
    · simp; omega
    · intro i h5 h6
      rw [hg i h5, List.getElem_take]
      simp only [List.length_take] at h6
      exact (hw.1 i (by omega)).1.symm
  rw [this]
  exact List.take_prefix _ _

/-- Memory "AAA", then NULs from address 3 on, for examples and refutations. -/
def exHole : MemSt := { mem := fun x => if x < 3 then 65 else 0 }

/-- Every page below 4096 is mapped, nothing else; /proc/pid/mem stops at the end. -/
def exPaged : Kernel := ⟨⟨true, false⟩, fun _ w => if w < 4096 then 0 else 5, fun _ _ => 0, fun _ => 0,
  fun _ a n => if a < 4096 then .count (min n (4096 - a)) else .err 5⟩

theorem exPaged_paged : Paged exPaged (fun x => decide (x < 4096)) 4096 := by
  refine ⟨by decide, ?_, ?_, ?_, ?_⟩
  · intro x y h; simp; omega
  · intro log a n c h hc
    simp only [exPaged] at h
    split at h
    · injection h with h; simp; omega
    · cases h
  · intro log a n c i h h1 h2
    simp only [exPaged] at h
    split at h
    · injection h with h; simp; omega
    · cases h
  · intro log w h
    simp at h
    simp [exPaged]; omega

/-- With complete replies (any chunk length): an untruncated result is the whole NUL terminated string; every
result is a prefix of it of at most `max_size` bytes; memory is untouched. -/
theorem C11_complete_partial (k : Kernel) (hk : CompleteReplies k) (fuel a lim chunk : Nat) (s : MemSt)
    (t : Bytes) (b : Bool) (h : (readCString k fuel a lim chunk s).1 = .ok (t, b)) :
    (readCString k fuel a lim chunk s).2.mem = s.mem ∧ t.length ≤ lim ∧
    (b = false → Spec.IsCString s.mem a t) ∧ ∀ w, Spec.IsCString s.mem a w → t <+: w := by
  have hf := fullReads_of_complete hk s.mem chunk
  have hr := readCStringLoop_run k s.mem a lim chunk
    (fun s' a' d h1 h2 h3 => absurd (hf s' a' d h1 h2) (by omega)) fuel 0 [] s rfl (by omega)
    (by intro i hi; simp at hi) (by simp) (Or.inl rfl)
  exact ⟨hr.mem, cstring_of_run hr t b h⟩

example := C11_complete_partial exKernel exKernel_complete 5 1 10 2 exHole [65, 65] false (by decide)

/-- The same for a paged address space, where `/proc/pid/mem` replies may stop short at an unmapped page: the
string is never assembled with a hole, provided a chunk is not longer than a page (the default is 256). -/
theorem C11_paged_partial (k : Kernel) (mapped : Nat → Bool) (ps : Nat) (hk : Paged k mapped ps)
    (fuel a lim chunk : Nat) (hc : 0 < chunk) (hps : chunk ≤ ps) (s : MemSt)
    (t : Bytes) (b : Bool) (h : (readCString k fuel a lim chunk s).1 = .ok (t, b)) :
    (readCString k fuel a lim chunk s).2.mem = s.mem ∧ t.length ≤ lim ∧
    (b = false → Spec.IsCString s.mem a t) ∧ ∀ w, Spec.IsCString s.mem a w → t <+: w := by
  have hr := readCStringLoop_run k s.mem a lim chunk (hk.noSkip s.mem chunk hc hps) fuel 0 [] s rfl
    (by omega) (by intro i hi; simp at hi) (by simp) (Or.inl rfl)
  exact ⟨hr.mem, cstring_of_run hr t b h⟩

-- a string that ends three bytes before the end of the mapped pages
example := C11_paged_partial exPaged (fun x => decide (x < 4096)) 4096 exPaged_paged 5 4090 100 4 (by decide) (by decide)
  { mem := fun x => if x < 4093 then 65 else 0 } [65, 65, 65] false (by decide)

/-- For a kernel that may cut a read anywhere the statement is false: the loop advances by the chunk length,
not by the number of bytes received, so the text has a hole. -/
theorem C11_refuted_short_reply : ¬ ∀ (k : Kernel) (fuel a lim chunk : Nat) (s : MemSt) (t : Bytes),
    0 < chunk → (readCString k fuel a lim chunk s).1 = .ok (t, false) → Spec.IsCString s.mem a t := by
  intro h
  have := h { exKernel with readReply := fun _ _ _ => .count 1 } 3 0 10 2 exHole [65, 65] (by decide)
    (by decide)
  exact absurd this.2 (by decide)

example : (readCString exKernel 5 1 10 2 exHole).1 = .ok ([65, 65], false) := by decide

/-! ## C12 — the truncated flag -/

/-- Exactly when the flag is set: the limit falls into or before the chunk holding the terminating NUL. Missing
for the full statement: the flag is also set when the whole string fits the limit (see the refutation). -/
theorem C12_flag_partial (k : Kernel) (hk : CompleteReplies k) (fuel a lim chunk : Nat) (hc : 0 < chunk)
    (s : MemSt) (w t : Bytes) (b : Bool) (hw : Spec.IsCString s.mem a w)
    (h : (readCString k fuel a lim chunk s).1 = .ok (t, b)) :
    b = true ↔ lim ≤ chunk * (w.length / chunk + 1) := by
  have := readCStringLoop_flag k s.mem lim chunk (fullReads_of_complete hk s.mem chunk) fuel a 0 w.length []
    s t b rfl (fun i hi => (hw.1 i hi).2) hw.2 hc h
  rwa [Nat.zero_add] at this

example := C12_flag_partial exKernel exKernel_complete 5 1 10 2 (by decide) exHole [65, 65] [65, 65] false
  ⟨by decide, rfl⟩ (by decide)

/-- In particular a cut text is never presented as complete, and no flag is set when the limit exceeds the
string by more than a chunk. -/
theorem C12_sound_partial (k : Kernel) (hk : CompleteReplies k) (fuel a lim chunk : Nat) (hc : 0 < chunk)
    (s : MemSt) (w t : Bytes) (b : Bool) (hw : Spec.IsCString s.mem a w)
    (h : (readCString k fuel a lim chunk s).1 = .ok (t, b)) :
    (t ≠ w → b = true) ∧ (w.length + chunk < lim → b = false ∧ t = w) := by
  obtain ⟨_, h2, h3, h4⟩ := C11_complete_partial k hk fuel a lim chunk s t b h
  have hfl := C12_flag_partial k hk fuel a lim chunk hc s w t b hw h
  have huniq : b = false → t = w := by
    intro hb
    have ht := h3 hb
    have hpre := h4 w hw
    have hlen : w.length ≤ t.length := by
      by_contra hcon
      exact (hw.1 t.length (by omega)).2 ht.2
    exact hpre.eq_of_length_le hlen
  constructor
  · intro hne
    cases b with
    | true => rfl
    | false => exact absurd (huniq rfl) hne
  · intro hlt
    have hb : b = false := by
      cases b with
      | false => rfl
      | true =>
        have hle := hfl.1 rfl
        rw [Nat.mul_add, Nat.mul_one] at hle
        have := Nat.mul_div_le w.length chunk
        omega
    exact ⟨hb, huniq hb⟩

example := C12_sound_partial exKernel exKernel_complete 5 1 10 2 (by decide) exHole [65, 65] [65, 65] false
  ⟨by decide, rfl⟩ (by decide)

/-- The full statement is false: the empty string read with a limit of 256 and the default chunk length is
reported as truncated. -/
theorem C12_refuted : ¬ ∀ (k : Kernel) (fuel a lim : Nat) (s : MemSt) (w t : Bytes), CompleteReplies k →
    Spec.IsCString s.mem a w → (readCString k fuel a lim 256 s).1 = .ok (t, true) → t ≠ w := by
  intro h
  have hk : CompleteReplies exKernel := fun _ _ _ _ h => by
    injection h with h; exact Or.inr (Nat.le_of_eq h)
  have hrd : (readBytes exKernel 3 256 exHole).1 = .ok (bytesAt exHole.mem 3 256) :=
    readBytes_ok exKernel 3 256 exHole (fun _ _ _ _ _ => rfl) (fun _ => ⟨256, rfl, Or.inr (Nat.le_refl _)⟩)
      (by decide)
  have hlen : (bytesAt exHole.mem 3 256).length = 256 := bytesAt_length _ _ _
  refine h exKernel 1 3 256 exHole [] [] hk ⟨by simp, rfl⟩ ?_ rfl
  unfold readCString
  rw [readCStringLoop]
  cases hb : readBytes exKernel 3 256 exHole with
  | mk res s1 =>
    rw [hb] at hrd
    have hrd : res = _ := hrd
    subst hrd
    rw [Py.bind_eq_ok hb]
    have hf : findNul (bytesAt exHole.mem 3 256) = some 0 := by
      unfold findNul
      rw [List.findIdx?_eq_some_iff_getElem]
      exact ⟨by rw [hlen]; decide, by rw [bytesAt_getElem]; decide, fun j hj => absurd hj (by omega)⟩
    rw [hf]
    simp [Py.pure]

example : Spec.IsCString exHole.mem 1 [65, 65] := ⟨by decide, rfl⟩

/-! ## C13 — termination and number of reads -/

/-- `max_size/chunk_length + 1` iterations (one `readBytes` each) are always enough, and giving more changes
nothing. -/
theorem C13_terminates (k : Kernel) (a lim chunk more : Nat) (hc : 0 < chunk) (s : MemSt) :
    (readCString k (lim / chunk + 1) a lim chunk s).1 ≠ .error .diverge ∧
    readCString k (lim / chunk + 1 + more) a lim chunk s = readCString k (lim / chunk + 1) a lim chunk s := by
  have h : (readCString k (lim / chunk + 1) a lim chunk s).1 ≠ .error .diverge := by
    refine readCStringLoop_fuel k lim chunk (lim / chunk + 1) a 0 [] s ?_ (Nat.succ_pos _)
    have h1 := Nat.div_add_mod lim chunk
    have h2 := Nat.mod_lt lim hc
    rw [Nat.add_mul, Nat.mul_comm (lim / chunk) chunk]; omega
  exact ⟨h, readCStringLoop_mono k lim chunk _ more a 0 [] s h⟩

example := C13_terminates exKernel 0 10 4 7 (by decide) exHole

/-- With complete replies every request is for a chunk starting below `a + max_size`, and none is for a chunk
after the one holding the first NUL. -/
theorem C13_reads (k : Kernel) (hk : CompleteReplies k) (fuel a lim chunk : Nat) (hc : 0 < chunk) (s : MemSt) :
    ∃ entries, (readCString k fuel a lim chunk s).2.log = entries ++ s.log ∧
      ∀ x ∈ entries, ∃ i, ReadAccess k.arch.W (a + i * chunk) chunk x ∧ (i = 0 ∨ i * chunk < lim) ∧
        ∀ L, s.mem (a + L) = 0 → i ≤ L / chunk := by
  obtain ⟨entries, j, h1, h2, h3, h4⟩ := readCStringLoop_log k s.mem lim chunk
    (fullReads_of_complete hk s.mem chunk) fuel a 0 [] s rfl
  refine ⟨entries, h1, ?_⟩
  intro x hx
  obtain ⟨i, hi, hra⟩ := h3 x hx
  refine ⟨i, hra, ?_, ?_⟩
  · rcases i with _ | i
    · exact Or.inl rfl
    · right
      have := (h4 i (by omega)).1
      omega
  · intro L hL
    by_contra hcon
    have hlt : L / chunk < i := by omega
    have hn := (h4 (L / chunk) (by omega)).2
    have e := Nat.div_add_mod L chunk
    have := hn (L % chunk) (Nat.mod_lt _ hc)
    apply this
    rw [← hL]
    congr 1
    rw [Nat.mul_comm (L / chunk) chunk, Nat.add_assoc, e]

example : (readCString exKernel 1 0 3 2 exHole).1 = .error .diverge := by decide
example : (readCString exKernel 2 0 3 2 exHole).1 = .ok ([65, 65, 65], true) := by decide

end PT.Props
