import Verif.Lemmas.Disasm2

namespace PT
open Props

theorem decodeAll_consecutive (one : Nat → Bytes → Option (Nat × Str)) (mem : Nat → Byte) : ∀ (fuel a n : Nat),
    Spec.Consecutive mem a (decodeAll one fuel a (bytesAt mem a n))
  | 0, _, _ => trivial
  | fuel + 1, a, n => by
    simp only [decodeAll]
    cases h : one a (bytesAt mem a n) with
    | none => trivial
    | some r =>
      obtain ⟨k, t⟩ := r
      simp only []
      by_cases hk : k = 0 ∨ (bytesAt mem a n).length < k
      · rw [if_pos hk]; trivial
      · rw [if_neg hk]
        simp at hk
        refine ⟨rfl, by dsimp only; omega, ?_, ?_⟩
        · dsimp only
          rw [bytesAt_take, codeAt_eq]
          congr 1
          omega
        · dsimp only
          rw [bytesAt_drop]
          exact decodeAll_consecutive one mem fuel (a + k) (n - k)

theorem consecutive_take {mem : Nat → Byte} : ∀ {l : List Instr} {a : Nat} (n : Nat), Spec.Consecutive mem a l →
    Spec.Consecutive mem a (l.take n)
  | [], _, _, _ => by simp [Spec.Consecutive]
  | i :: l, a, 0, _ => trivial
  | i :: l, a, n + 1, h => by
    obtain ⟨h1, h2, h3, h4⟩ := h
    exact ⟨h1, h2, h3, consecutive_take n h4⟩

theorem decodeAll_code {one : Nat → Bytes → Option (Nat × Str)} {mem : Nat → Byte} : ∀ (l : List Spec.CodeItem) (fuel a n : Nat),
    Spec.Code one mem a l → Spec.total l ≤ n → l.length ≤ fuel →
    l.map (itemInstr mem) <+: decodeAll one fuel a (bytesAt mem a n)
  | [], _, _, _, _, _, _ => List.nil_prefix
  | (xa, xn, xt) :: l, fuel, a, n, hc, hn, hf => by
    obtain ⟨h1, h2, h3⟩ := hc
    dsimp only at h1 h2 h3
    subst h1
    simp only [Spec.total] at hn
    obtain ⟨f, rfl⟩ : ∃ f, fuel = f + 1 := ⟨fuel - 1, by simp at hf; omega⟩
    have hsplit : bytesAt mem xa n = bytesAt mem xa xn ++ bytesAt mem (xa + xn) (n - xn) := by
      rw [← bytesAt_add]
      congr 1
      omega
    rw [hsplit, decodeAll_cons h2, List.map_cons]
    refine List.cons_prefix_cons.2 ⟨rfl, ?_⟩
    exact decodeAll_code l f (xa + xn) (n - xn) h3 (by omega) (by simp at hf; omega)

theorem length_le_total {one : Nat → Bytes → Option (Nat × Str)} {mem : Nat → Byte} : ∀ {l : List Spec.CodeItem} {a : Nat},
    Spec.Code one mem a l → l.length ≤ Spec.total l
  | [], _, _ => by simp
  | x :: l, a, h => by
    obtain ⟨_, h2, h3⟩ := h
    have := length_le_total h3
    have := h2.1
    simp only [List.length_cons, Spec.total]
    omega

theorem total_le {m : Nat} : ∀ {l : List Spec.CodeItem}, (∀ x ∈ l, x.2.1 ≤ m) → Spec.total l ≤ l.length * m
  | [], _ => by simp [Spec.total]
  | x :: l, h => by
    have h1 := total_le (l := l) (fun y hy => h y (by simp [hy]))
    have h2 := h x (by simp)
    simp only [List.length_cons, Spec.total, Nat.add_mul]
    omega

/-- What a successful disassembly returns. -/
theorem procDisassemble_ok {E : Disassembler} {h : BpHost} {a : Nat} {stop nb : Option Nat} {s s' : BpSt} {l : List Instr}
    (hr : procDisassemble E h a stop nb s = (.ok l, s')) :
    ∃ n, n ≤ disasmSize E a stop nb ∧ (CompleteReplies h.kernel → n = disasmSize E a stop nb) ∧
      (E.bytesHex = true → l = []) ∧ Same s s' ∧
      l = (if disasmLimit stop nb = 0 then decodeAll E.one n a (bytesAt s.m.mem a n)
        else (decodeAll E.one n a (bytesAt s.m.mem a n)).take (disasmLimit stop nb)) := by
  unfold procDisassemble at hr
  obtain ⟨c, u, h1, h2⟩ := Py.ok_of_bind hr
  obtain ⟨d, v, h3, h4⟩ := Py.ok_of_bind h2
  have hs := onMem_read_same h.kernel a (disasmSize E a stop nb) s
  rw [h1] at hs
  have h5 : (readBytes h.kernel a (disasmSize E a stop nb) s.m).1 = .ok c := by
    unfold onMem at h1
    generalize readBytes h.kernel a (disasmSize E a stop nb) s.m = x at h1 ⊢
    obtain ⟨r, m'⟩ := x
    injection h1
  obtain ⟨hle, hd⟩ := (readBytes_readRun h.kernel a (disasmSize E a stop nb) s.m).result c h5
  have hdec : disassembleCode E c a = .ok d ∧ v = u := by
    unfold liftE at h3
    cases hx : disassembleCode E c a with
    | error e => rw [hx] at h3; injection h3 with h3 _; cases h3
    | ok x =>
      rw [hx] at h3
      injection h3 with h3 h3'
      injection h3 with h3
      exact ⟨by rw [h3], h3'.symm⟩
  obtain ⟨hdec, rfl⟩ := hdec
  simp only [Py.pure, Prod.mk.injEq, Except.ok.injEq] at h4
  obtain ⟨h4, rfl⟩ := h4
  unfold disassembleCode at hdec
  simp only [] at hdec
  refine ⟨c.length, hle, fun hk => C10_partial h.kernel a _ s.m c (Or.inl hk) h5, ?_, hs, ?_⟩
  · intro hb
    rw [hb] at hdec
    by_cases he : (decodeAll E.one c.length a c).isEmpty
    · simp [he] at hdec
      rw [← h4, ← hdec]
      rw [List.isEmpty_iff] at he
      rw [he]; simp
    · simp [he] at hdec
  · by_cases hx : (E.bytesHex && !(decodeAll E.one c.length a c).isEmpty) = true
    · rw [if_pos hx] at hdec; cases hdec
    · rw [if_neg hx] at hdec
      injection hdec with hdec
      rw [← hd, hdec]
      exact h4.symm

theorem logLine_run (l : DumpLine) (s : DumpSt) : logLine l s = (.ok (), { s with out := s.out ++ [l] }) := rfl

theorem dumpAll_run (ip : Option Nat) : ∀ (l : List Instr) (s : DumpSt), dumpAll ip l s =
    (.ok (), { s with out := s.out ++ l.map fun i => .instr i (decide (some i.address = ip)) false })
  | [], s => by simp [dumpAll, Py.pure]
  | i :: l, s => by
    have h1 : logLine (.instr i (decide (some i.address = ip)) false) s =
        (.ok (), { s with out := s.out ++ [.instr i (decide (some i.address = ip)) false] }) := rfl
    rw [dumpAll, Py.run_bind_ok h1, dumpAll_run ip l]
    simp

end PT
