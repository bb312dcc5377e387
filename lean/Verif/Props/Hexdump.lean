import Verif.Lemmas.Hexdump
import Verif.Props.Memory

/-! Property C45: the command `hexdump`. -/

namespace PT
open Spec Props

section
variable {σ : Type} {a : Arch} {parse : Str → Py σ Nat} {read : Nat → Nat → Py σ Bytes} {terminal : Nat}

theorem hexdump_two {x y : Str} (hx : ' ' ∉ x) {s : σ} :
    hexdump a parse read terminal (x ++ ' ' :: y) s =
    Py.bind (catchValue
      (Py.bind (parse x) fun start =>
       Py.bind (parse y) fun stop =>
       if stop ≤ start then Py.raise .value else Py.pure (some (start, stop)))) (fun r =>
    match r with
    | none => Py.pure none
    | some (start, stop) =>
      if hexdumpWidth a terminal * 20 < stop - start then
        Py.bind (hexdumpLoop a read (hexdumpWidth a terminal) (start + hexdumpWidth a terminal * 20)
          (hexdumpWidth a terminal * 20) start none) fun outs =>
        Py.pure (some (outs ++ [.limit (hexdumpWidth a terminal * 20)]))
      else
        Py.bind (hexdumpLoop a read (hexdumpWidth a terminal) stop (stop - start) start none) fun outs => Py.pure (some outs)) s := by
  have h : ∀ c ∈ x, decide (c ≠ ' ') = true := by
    intro c hc
    simp only [ne_eq, decide_not, Bool.not_eq_eq_eq_not, Bool.not_true, decide_eq_false_iff_not]
    rintro rfl; exact hx hc
  have h1 : (x ++ ' ' :: y).dropWhile (· ≠ ' ') = ' ' :: y := by
    rw [List.dropWhile_append_of_pos h]; simp
  have h2 : (x ++ ' ' :: y).takeWhile (· ≠ ' ') = x := by
    rw [List.takeWhile_append_of_pos h]; simp
  unfold hexdump
  simp only [h1, h2]
  rfl

/-- The two addresses of `hexdump x y`, evaluated one after the other. -/
def Evaluates (parse : Str → Py σ Nat) (x y : Str) (s : σ) (start stop : Nat) (t : σ) : Prop :=
  ∃ u, parse x s = (.ok start, u) ∧ parse y u = (.ok stop, t)

/-- `hexdump start end` prints the dump of the range up to `end`, or up to twenty rows: every row is read once,
in order, and is shown byte by byte, or is part of a reported range which consists of unreadable rows. The limit
is announced exactly when the range was cut. -/
theorem C45_dump {x y : Str} (hx : ' ' ∉ x) {s t v : σ} {start stop : Nat} {outs : List DumpOut}
    (he : Evaluates parse x y s start stop t)
    (h : hexdump a parse read terminal (x ++ ' ' :: y) s = (.ok (some outs), v)) :
    start < stop ∧ ∃ items shown,
      Dump read (hexdumpWidth a terminal) (min stop (start + 20 * hexdumpWidth a terminal)) start t items v ∧
      List.Forall₂ (Shown a (hexdumpWidth a terminal)) items shown ∧
      outs = shown ++ if start + 20 * hexdumpWidth a terminal < stop then [.limit (20 * hexdumpWidth a terminal)] else [] := by
  obtain ⟨u, h1, h2⟩ := he
  rw [hexdump_two hx] at h
  have hw := hexdumpWidth_pos a terminal
  by_cases hle : stop ≤ start
  · have hc : catchValue (Py.bind (parse x) fun start => Py.bind (parse y) fun stop =>
        if stop ≤ start then Py.raise .value else Py.pure (some (start, stop))) s = (.ok none, t) := by
      unfold catchValue
      rw [Py.run_bind_ok h1, Py.run_bind_ok h2, if_pos hle]
      rfl
    rw [Py.run_bind_ok hc] at h
    cases h
  · have hc : catchValue (Py.bind (parse x) fun start => Py.bind (parse y) fun stop =>
        if stop ≤ start then Py.raise .value else Py.pure (some (start, stop))) s = (.ok (some (start, stop)), t) := by
      unfold catchValue
      rw [Py.run_bind_ok h1, Py.run_bind_ok h2, if_neg hle]
      rfl
    rw [Py.run_bind_ok hc] at h
    refine ⟨by omega, ?_⟩
    by_cases hlim : hexdumpWidth a terminal * 20 < stop - start
    · simp only [if_pos hlim] at h
      obtain ⟨shown, w, h3, h4⟩ := Py.ok_of_bind h
      cases h4
      obtain ⟨items, h5, h6⟩ := (hexdumpLoop_dump a hw _ start (by omega) t v shown).1 h3
      rw [Nat.mul_comm] at h5
      rw [Nat.min_eq_right (by omega)]
      refine ⟨items, shown, h5, h6, ?_⟩
      rw [if_pos (by omega), Nat.mul_comm]
    · simp only [if_neg hlim] at h
      obtain ⟨shown, w, h3, h4⟩ := Py.ok_of_bind h
      cases h4
      obtain ⟨items, h5, h6⟩ := (hexdumpLoop_dump a hw _ start (by omega) t v outs).1 h3
      rw [Nat.min_eq_left (by omega)]
      refine ⟨items, outs, h5, h6, ?_⟩
      rw [if_neg (by omega), List.append_nil]

/-- `hexdump start` prints five rows in the same way. -/
theorem C45_short {x : Str} (hx : ' ' ∉ x) {s t v : σ} {start : Nat} {outs : List DumpOut}
    (he : parse x s = (.ok start, t)) (h : hexdump a parse read terminal x s = (.ok (some outs), v)) :
    ∃ items, Dump read (hexdumpWidth a terminal) (start + 5 * hexdumpWidth a terminal) start t items v ∧
      List.Forall₂ (Shown a (hexdumpWidth a terminal)) items outs := by
  have h1 : x.dropWhile (· ≠ ' ') = [] := by
    have : ∀ l : Str, ' ' ∉ l → l.dropWhile (· ≠ ' ') = [] := by
      intro l
      induction l with
      | nil => exact fun _ => rfl
      | cons c l ih =>
        intro hl
        have hc : c ≠ ' ' := fun hc => hl (hc ▸ List.mem_cons_self ..)
        rw [List.dropWhile_cons, if_pos (by simpa using hc)]
        exact ih fun hm => hl (List.mem_cons_of_mem _ hm)
    exact this x hx
  unfold hexdump at h
  simp only [h1] at h
  have hc : catchValue (Py.bind (parse x) fun start => Py.pure (some start)) s = (.ok (some start), t) := by
    unfold catchValue
    rw [Py.run_bind_ok he]
    rfl
  rw [Py.run_bind_ok hc] at h
  obtain ⟨shown, w, h3, h4⟩ := Py.ok_of_bind h
  cases h4
  exact (hexdumpLoop_dump a (hexdumpWidth_pos a terminal) _ start (by omega) t v outs).1 h3

/-- A range that is not empty is dumped (no error message) if reads raise nothing but `PtraceError`; an empty one
is an error message, and nothing is read. -/
theorem C45_returns {x y : Str} (hx : ' ' ∉ x) {s t : σ} {start stop : Nat}
    (only : ∀ x n s e t, read x n s = (.error e, t) → ∃ en, e = .ptrace en)
    (he : Evaluates parse x y s start stop t) :
    (start < stop → ∃ outs v, hexdump a parse read terminal (x ++ ' ' :: y) s = (.ok (some outs), v)) ∧
    (stop ≤ start → hexdump a parse read terminal (x ++ ' ' :: y) s = (.ok none, t)) := by
  obtain ⟨u, h1, h2⟩ := he
  rw [hexdump_two hx]
  constructor
  · intro hlt
    have hc : catchValue (Py.bind (parse x) fun start => Py.bind (parse y) fun stop =>
        if stop ≤ start then Py.raise .value else Py.pure (some (start, stop))) s = (.ok (some (start, stop)), t) := by
      unfold catchValue
      rw [Py.run_bind_ok h1, Py.run_bind_ok h2, if_neg (by omega)]
      rfl
    rw [Py.run_bind_ok hc]
    by_cases hlim : hexdumpWidth a terminal * 20 < stop - start
    · simp only [if_pos hlim]
      obtain ⟨outs, v, h⟩ := hexdumpLoop_returns (width := hexdumpWidth a terminal)
        (stop := start + hexdumpWidth a terminal * 20) a (hexdumpWidth_pos a terminal) only
        (hexdumpWidth a terminal * 20) start (by omega) none t
      rw [Py.run_bind_ok h]
      exact ⟨_, _, rfl⟩
    · simp only [if_neg hlim]
      obtain ⟨outs, v, h⟩ := hexdumpLoop_returns (width := hexdumpWidth a terminal)
        (stop := stop) a (hexdumpWidth_pos a terminal) only (stop - start) start (Nat.le_refl _) none t
      rw [Py.run_bind_ok h]
      exact ⟨_, _, rfl⟩
  · intro hle
    have hc : catchValue (Py.bind (parse x) fun start => Py.bind (parse y) fun stop =>
        if stop ≤ start then Py.raise .value else Py.pure (some (start, stop))) s = (.ok none, t) := by
      unfold catchValue
      rw [Py.run_bind_ok h1, Py.run_bind_ok h2, if_pos hle]
      rfl
    rw [Py.run_bind_ok hc]
    rfl

end

/-- The dump of memory: the printed pieces tile the range, in order, so every address lies in exactly one of them;
the bytes printed are those of memory. -/
def MemoryDump (a : Arch) (width start stop : Nat) (mem : Nat → Byte) (shown : List DumpOut) : Prop :=
  ∃ items, List.Forall₂ (Shown a width) items shown ∧ Tiles start (items.map Item.extent) stop ∧
    (∀ x, start ≤ x → x < stop → ∃ (i p q : Nat), (items.map Item.extent)[i]? = some (p, q) ∧ p ≤ x ∧ x < q ∧
      ∀ (j p' q' : Nat), (items.map Item.extent)[j]? = some (p', q') → p' ≤ x → x < q' → j = i) ∧
    ∀ address bytes, Item.row address bytes ∈ items → IsRange mem address bytes.length bytes

/-- What C45 says about `readBytes`, for every kernel. -/
def HexdumpCovers (k : Kernel) (s : MemSt) : Prop :=
  ∀ (parse : Str → Py MemSt Nat) (terminal : Nat) (x y : Str) (s0 v : MemSt) (start stop : Nat) (outs : List DumpOut),
    ' ' ∉ x → Evaluates parse x y s0 start stop s →
    hexdump k.arch parse (readBytes k) terminal (x ++ ' ' :: y) s0 = (.ok (some outs), v) →
    ∃ shown, outs = shown ++ (if start + 20 * hexdumpWidth k.arch terminal < stop
        then [.limit (20 * hexdumpWidth k.arch terminal)] else []) ∧
      MemoryDump k.arch (hexdumpWidth k.arch terminal) start (min stop (start + 20 * hexdumpWidth k.arch terminal)) s.mem shown

/-- With complete `/proc/pid/mem` replies, or with `PTRACE_PEEKTEXT`, every byte of the range is printed once,
or reported in an unreadable range. -/
theorem C45_memory_partial (k : Kernel) (s : MemSt) (hk : CompleteReplies k ∨ s.fallback = true) : HexdumpCovers k s := by
  intro parse terminal x y s0 v start stop outs hx he h
  obtain ⟨hlt, items, shown, h1, h2, h3⟩ := C45_dump hx he h
  have hw := hexdumpWidth_pos k.arch terminal
  refine ⟨shown, h3, items, h2, ?_⟩
  have hinv : ∀ {a n} {u : MemSt} {r : Except Exc Bytes} {w : MemSt},
      (u.mem = s.mem ∧ (CompleteReplies k ∨ u.fallback = true)) → readBytes k a n u = (r, w) →
      (w.mem = s.mem ∧ (CompleteReplies k ∨ w.fallback = true)) := by
    rintro a n u r w ⟨hm, hk⟩ he
    have hr := readBytes_readRun k a n u
    have h1 := hr.mem
    have h2 := hr.sticky
    rw [he] at h1 h2
    exact ⟨h1.trans hm, hk.imp id h2⟩
  have ht := Dump.tiles' (inv := fun u => u.mem = s.mem ∧ (CompleteReplies k ∨ u.fallback = true)) hinv hw
    (fun a n u bs t hu hr => C10_partial k a n u bs hu.2 (by rw [hr])) h1 (by omega) ⟨rfl, hk⟩
  refine ⟨ht, fun x h4 h5 => Tiles.unique ht x h4 h5, ?_⟩
  exact Dump.rows (inv := fun u => u.mem = s.mem ∧ (CompleteReplies k ∨ u.fallback = true))
    (P := fun a bytes => IsRange s.mem a bytes.length bytes) hinv
    (fun a n u bs t hu hr => hu.1 ▸ (C09_prefix k a n u bs (by rw [hr])).2) h1 ⟨rfl, hk⟩

theorem Spec.Shown.line {a : Arch} {width : Nat} {item : Item} {t hexa ascii : Str}
    (h : Shown a width item (.line t hexa ascii)) : ∃ address bytes, item = .row address bytes ∧ HexColumn width bytes hexa := by
  cases h with
  | row h1 h2 => exact ⟨_, _, rfl, h1⟩

theorem Spec.Tiles.nil_eq {a b : Nat} (h : Tiles a [] b) : a = b := by cases h; rfl

/-- Addresses for the examples: one digit each. -/
def digitParse : Str → Py MemSt Nat
  | [c] => Py.pure (c.toNat - 48)
  | _ => Py.raise .value

/-- Replies of at most two bytes. -/
def shortKernel : Kernel := { exKernel with readReply := fun _ _ _ => .count 2 }

theorem shortRun : (hexdump shortKernel.arch digitParse (readBytes shortKernel) 80 ("4".toList ++ ' ' :: "8".toList) exOnes).1 =
    .ok (some [.line "0x00000004".toList ("ff ff".toList ++ List.replicate 42 ' ') ("..".toList ++ List.replicate 14 ' ')]) := by
  decide +kernel

-- the theorems at work, with short replies
example := C45_dump (a := shortKernel.arch) (parse := digitParse) (read := readBytes shortKernel) (terminal := 29) (x := "4".toList) (y := "9".toList) (by decide)
  (s := exOnes) (t := exOnes) (start := 4) (stop := 9) ⟨exOnes, rfl, rfl⟩ (v := _) (outs := ((hexdump shortKernel.arch digitParse (readBytes shortKernel) 29 "4 9".toList exOnes).1.toOption.join).getD [])
  (Prod.ext (by decide +kernel) rfl)

example := C45_short (a := exKernel.arch) (parse := digitParse) (read := readBytes exKernel) (terminal := 29) (x := "4".toList) (by decide)
  (s := exOnes) (t := exOnes) (start := 4) rfl (v := _) (outs := ((hexdump exKernel.arch digitParse (readBytes exKernel) 29 "4".toList exOnes).1.toOption.join).getD [])
  (Prod.ext (by decide +kernel) rfl)

example := C45_returns (σ := MemSt) (a := exKernel.arch) (parse := digitParse) (read := fun a n => if 8 ≤ a then Py.raise (.ptrace (some 5)) else Py.pure (List.replicate n 0))
  (terminal := 29) (x := "4".toList) (y := "9".toList) (by decide) (s := exOnes) (t := exOnes)
  (fun x n s e t h => by
    by_cases hx : 8 ≤ x
    · rw [if_pos hx] at h; injection h with h _; injection h with h; exact ⟨_, h.symm⟩
    · rw [if_neg hx] at h; injection h with h _; cases h) ⟨exOnes, rfl, rfl⟩

/-- The full statement is false: a short reply of the kernel is printed as a short row, and the rest of the row is
neither printed nor reported. -/
theorem C45_refuted : ¬ ∀ (k : Kernel) (s : MemSt), HexdumpCovers k s := by
  intro h
  have hrun := shortRun
  obtain ⟨shown, h1, items, h2, h3, -, -⟩ := h shortKernel exOnes digitParse 80 "4".toList "8".toList exOnes _ 4 8 _
    (by decide) ⟨exOnes, rfl, rfl⟩ (Prod.ext hrun rfl)
  rw [if_neg (by decide +kernel), List.append_nil] at h1
  subst h1
  rw [show min 8 (4 + 20 * hexdumpWidth shortKernel.arch 80) = 8 by decide +kernel] at h3
  cases h2 with
  | cons hs hn =>
    cases hn
    obtain ⟨address, bytes, rfl, hh⟩ := hs.line
    cases h3 with
    | cons lt ht =>
      have hl : 4 + bytes.length = 8 := ht.nil_eq
      have := (hh.2.1 3 (by omega)).1
      have hne : ∀ b : Byte, hexChar (b.val / 16) ≠ ' ' := by decide +kernel
      injection this with this
      exact hne _ this.symm

-- without short replies: five bytes in rows of four, and the second row is not readable
example : HexdumpCovers exKernel exOnes := C45_memory_partial _ _ (.inl fun _ _ _ _ h => by
  injection h with h; exact Or.inr (Nat.le_of_eq h))
example : (hexdump exKernel.arch digitParse (readBytes
    { exKernel with readReply := fun _ a n => if 8 ≤ a then .err 5 else .count n }) 29 "4 9".toList exOnes).1 =
    .ok (some [.line "0x00000004".toList "ff ff ff ff".toList "....".toList,
      .unreadable "0x00000008-0x00000009".toList]) := by decide +kernel
example : Evaluates digitParse "4".toList "9".toList exOnes 4 9 exOnes := ⟨exOnes, rfl, rfl⟩

end PT
