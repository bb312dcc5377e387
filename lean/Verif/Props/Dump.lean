import Verif.Model.Dump
import Verif.Spec.Dump
import Verif.Props.GdbCmd
import Verif.Props.Backtrace

/-
C100 — dumps of registers, stack, mappings and frames.
-/

namespace PT
open Spec

theorem nameWidth_ge (fields : List (String × Nat)) : ∀ f ∈ fields, f.1.toList.length ≤ nameWidth fields := by
  have key : ∀ (l : List (String × Nat)) (w : Nat), w ≤ l.foldl (fun w f => max w f.1.toList.length) w ∧
      ∀ f ∈ l, f.1.toList.length ≤ l.foldl (fun w f => max w f.1.toList.length) w := by
    intro l
    induction l with
    | nil => exact fun w => ⟨Nat.le_refl _, fun f hf => nomatch hf⟩
    | cons x l ih =>
      intro w
      obtain ⟨h1, h2⟩ := ih (max w x.1.toList.length)
      rw [List.foldl_cons]
      refine ⟨by omega, fun f hf => ?_⟩
      rcases List.mem_cons.1 hf with rfl | hf
      · omega
      · exact h2 f hf
  exact (key fields 0).2

theorem registerText_value (a : Arch) (bits v : Nat) : hexLiteral (registerText a bits v) = some v := by
  unfold registerText
  split
  · exact hexNumber_pyHexPad _ _
  · split
    · exact hexNumber_pyHexPad _ _
    · exact hexLiteral_formatWordHex a v

theorem padLeft_spec (w : Nat) (t : Str) : ∃ pad, (∀ c ∈ pad, c = ' ') ∧ padLeft w t = pad ++ t ∧ pad.length = w - t.length :=
  ⟨_, fun _ hc => List.eq_of_mem_replicate hc, rfl, List.length_replicate⟩

/-- The command `regs` shows every register once, in the order of the structure, with its value; the names form a column. -/
theorem C100_regs (a : Arch) (t : RegTable) (k : RegKernel) (errText : Exc → Str) (c : Con RegSt) (hk : k c.inner.count = 0) :
    ∃ lines d, dumpRegs a t k errText c = (.ok (), d) ∧ d.out = c.out ++ lines ∧ d.inner.regs = c.inner.regs ∧
      ∃ column, List.Forall₂ (fun f line => RegLine column f.1.toList (c.inner.regs f.1) line) t.fields lines := by
  have hg : getregs k c.inner = (.ok c.inner.regs, { c.inner with count := c.inner.count + 1 }) := by
    unfold getregs; simp [hk]
  refine ⟨regLines a t c.inner.regs, ⟨{ c.inner with count := c.inner.count + 1 }, c.out ++ regLines a t c.inner.regs⟩, ?_, ?_, ?_, nameWidth t.fields, ?_⟩
  · unfold dumpRegs
    rw [inside_eq hg]
    exact sayAll_eq _ _
  · rfl
  · rfl
  · refine forall₂_map_mem _ fun f hf => ?_
    obtain ⟨pad, h1, h2, h3⟩ := padLeft_spec (nameWidth t.fields) f.1.toList
    have := nameWidth_ge t.fields f hf
    exact ⟨pad, _, h1, by omega, registerText_value .., by rw [h2]⟩

example := C100_regs ⟨true, false⟩ regsX86_64 (fun _ => 0) (fun _ => "error".toList) ⟨{ regs := fun n => n.length }, []⟩ rfl

/-- If the registers cannot be read, one line says so. -/
theorem C100_regs_fails (a : Arch) (t : RegTable) (k : RegKernel) (errText : Exc → Str) (c : Con RegSt) (hk : k c.inner.count ≠ 0) :
    ∃ d, dumpRegs a t k errText c = (.ok (), d) ∧ d.inner.regs = c.inner.regs ∧
      d.out = c.out ++ ["Unable to read registers: ".toList ++ errText (.ptrace (some (k c.inner.count)))] := by
  have hg : getregs k c.inner = (.error (.ptrace (some (k c.inner.count))), { c.inner with count := c.inner.count + 1 }) := by
    unfold getregs; simp [hk]
  refine ⟨⟨{ c.inner with count := c.inner.count + 1 }, c.out ++ ["Unable to read registers: ".toList ++ errText (.ptrace (some (k c.inner.count)))]⟩, ?_, ?_, ?_⟩
  · unfold dumpRegs
    rw [inside_eq hg]
    rfl
  · rfl
  · rfl

example := C100_regs_fails ⟨true, false⟩ regsX86_64 (fun _ => 3) (fun _ => "error".toList) ⟨{ regs := fun n => n.length }, []⟩ (by decide)

/-- The number of digits does not follow the width of a register, though the code has a branch for registers of 16 bits: it compares the
number of bytes with the number of bits. -/
theorem C100_digits_refuted : ¬ ∀ (a : Arch) (t : RegTable) (regs : String → Nat), (∀ f ∈ t.fields, regs f.1 < 2 ^ f.2) →
    List.Forall₂ (fun f line => ∃ pre hex : Str, line = pre ++ " = 0x".toList ++ hex ∧ hex.length = f.2 / 4) t.fields (regLines a t regs) := by
  intro h
  have h1 := h ⟨false, false⟩ ⟨[("cs", 16)], [], none, none, none⟩ (fun _ => 0x73) (by decide)
  have h2 : regLines ⟨false, false⟩ ⟨[("cs", 16)], [], none, none, none⟩ (fun _ => 0x73) = ["cs = 0x00000073".toList] := by decide +kernel
  rw [h2] at h1
  cases h1 with
  | cons h _ =>
    obtain ⟨pre, hex, he, hl⟩ := h
    have hlen := congrArg List.length he
    simp at hlen
    simp at hl
    -- the separator begins in column 2, so the prefix has two characters and eight digits follow
    have : pre.length = 6 := by omega
    have hd := congrArg (fun l : Str => l[6]?) he
    rw [List.append_assoc] at hd
    simp only [List.getElem?_append_right (show pre.length ≤ 6 by omega), this] at hd
    exact absurd hd (by simp)

theorem signedText_spec (n : Int) : ∃ pad num, (∀ c ∈ pad, c = ' ') ∧ SignedText n num ∧ signedText n = pad ++ num := by
  unfold signedText
  obtain ⟨pad, h1, h2, -⟩ := padLeft_spec 3 (if n < 0 then pyDecInt n else '+' :: pyDecInt n)
  refine ⟨pad, _, h1, ?_, h2⟩
  cases n with
  | ofNat n =>
    rw [if_neg (by simp)]
    exact ⟨pyDec n, n, decNumber_pyDec n, Or.inl ⟨rfl, rfl⟩⟩
  | negSucc n =>
    rw [if_pos (Int.negSucc_lt_zero n)]
    exact ⟨pyDec (n + 1), n + 1, decNumber_pyDec _, Or.inr ⟨rfl, by omega, by omega⟩⟩

/-- Words are read without changing what is read next: in every state with `I`, the word at an address is `r`. -/
def ReadsWords {σ : Type} (I : σ → Prop) (readWord : Int → Py σ Nat) (r : Int → Except Exc Nat) : Prop :=
  ∀ x s, I s → ∃ t, I t ∧ readWord x s = (r x, t)

theorem stackLoop_spec {σ : Type} (a : Arch) (readWord : Int → Py σ Nat) (sp : Nat) (I : σ → Prop) (r : Int → Except Exc Nat)
    (hr : ReadsWords I readWord r) (he : ∀ x e, r x = .error e → e.isPtrace = true) (is : List Int) (n : Nat) (c : Con σ) (hc : I c.inner) :
    ∃ lines d, stackLoop a readWord sp is n c = (.ok (n + lines.length), d) ∧ I d.inner ∧ d.out = c.out ++ lines ∧
      StackLines (fun x => (r (sp + x)).toOption) (is.map (· * (a.W : Int))) lines := by
  induction is generalizing n c with
  | nil => exact ⟨[], c, rfl, hc, (List.append_nil _).symm, StackLines.nil⟩
  | cons i is ih =>
    obtain ⟨t, ht, h⟩ := hr (sp + i * a.W) c.inner hc
    unfold stackLoop
    rw [inside_eq h]
    cases hx : r (sp + i * a.W) with
    | ok v =>
      obtain ⟨pad, num, h1, h2, h3⟩ := signedText_spec (i * a.W)
      have hsay : say (σ := σ) ("STACK".toList ++ signedText (i * a.W) ++ ": ".toList ++ formatWordHex a v) { c with inner := t } = (.ok (), ⟨t, c.out ++
          ["STACK".toList ++ signedText (i * a.W) ++ ": ".toList ++ formatWordHex a v]⟩) := rfl
      obtain ⟨lines, d, h4, h5, h6, h7⟩ := ih (n + 1) ⟨t, c.out ++ ["STACK".toList ++ signedText (i * a.W) ++ ": ".toList ++ formatWordHex a v]⟩ ht
      refine ⟨("STACK".toList ++ signedText (i * a.W) ++ ": ".toList ++ formatWordHex a v) :: lines, d, ?_, h5, ?_, StackLines.shown (by rw [hx]; rfl) ⟨pad, num, _, h1, h2, hexLiteral_formatWordHex a v, ?_⟩ h7⟩
      · simp only []
        rw [Py.run_bind_ok hsay, h4, List.length_cons]
        congr 2; omega
      · rw [h6]; simp only [List.append_assoc, List.singleton_append]
      · rw [h3]; simp
    | error e =>
      obtain ⟨lines, d, h4, h5, h6, h7⟩ := ih n { c with inner := t } ht
      refine ⟨lines, d, ?_, h5, h6, StackLines.skipped (by rw [hx]; rfl) h7⟩
      simp only [he _ _ hx]
      exact h4

theorem Spec.StackLines.nil_iff {word : Int → Option Nat} {ds : List Int} {lines : List Str} (h : StackLines word ds lines) :
    lines = [] ↔ ∀ d ∈ ds, word d = none := by
  induction h with
  | nil => exact ⟨fun _ d hd => (nomatch hd), fun _ => rfl⟩
  | @shown d ds v _ _ h _ _ _ =>
    refine ⟨fun h => (nomatch h), fun hall => ?_⟩
    rw [hall d (List.mem_cons_self ..)] at h
    cases h
  | @skipped d ds _ h _ ih =>
    rw [ih]
    refine ⟨fun hall x hx => ?_, fun hall x hx => hall x (List.mem_cons_of_mem _ hx)⟩
    rcases List.mem_cons.1 hx with rfl | hx
    · exact h
    · exact hall x hx

/-- The command `stack` shows the first mapping of a stack, if there is one, and then the words around the stack pointer that can be read, in order
and each with its distance and value; if none can be read it says so. -/
theorem C100_stack {σ : Type} (a : Arch) (maps : Py σ (List Mapping)) (getStackPointer : Py σ Nat) (readWord : Int → Py σ Nat) (I : σ → Prop)
    (r : Int → Except Exc Nat) (hr : ReadsWords I readWord r) (he : ∀ x e, r x = .error e → e.isPtrace = true) (c : Con σ) (ms : List Mapping) (s1 s2 : σ)
    (sp : Nat) (hm : maps c.inner = (.ok ms, s1)) (hsp : getStackPointer s1 = (.ok sp, s2)) (hI : I s2) :
    ∃ first lines d, dumpStack a maps getStackPointer readWord c = (.ok (), d) ∧ I d.inner ∧ d.out = c.out ++ first ++ lines ∧
      ((∀ m ∈ ms, m.pathname ≠ some "[stack]".toList) → first = []) ∧
      (∀ pre m post, ms = pre ++ m :: post → m.pathname = some "[stack]".toList → (∀ x ∈ pre, x.pathname ≠ some "[stack]".toList) →
        ∃ t, MappingText m t ∧ first = ["STACK: ".toList ++ t]) ∧
      ((∀ x ∈ aroundStack a.W, ∃ e, r (sp + x) = .error e) → ∃ t, AddressText sp t ∧
        lines = ["ERROR: unable to read the stack (SP=".toList ++ t ++ [')']]) ∧
      ((∃ x ∈ aroundStack a.W, ∃ v, r (sp + x) = .ok v) → StackLines (fun x => (r (sp + x)).toOption) (aroundStack a.W) lines) := by
  have haround : stackIndexes.map (· * (a.W : Int)) = aroundStack a.W := by
    unfold stackIndexes aroundStack
    simp [List.range_succ]
  -- the line about the mapping
  obtain ⟨first, hfirst, hnone, hsome⟩ : ∃ first : List Str, stackLine a (findStack ms) = first ∧
      ((∀ m ∈ ms, m.pathname ≠ some "[stack]".toList) → first = []) ∧
      (∀ pre m post, ms = pre ++ m :: post → m.pathname = some "[stack]".toList → (∀ x ∈ pre, x.pathname ≠ some "[stack]".toList) →
        ∃ t, MappingText m t ∧ first = ["STACK: ".toList ++ t]) := by
    cases h : findStack ms with
    | none =>
      refine ⟨[], rfl, fun _ => rfl, fun pre m post h1 h2 _ => ?_⟩
      · exfalso
        unfold findStack at h
        rw [List.find?_eq_none] at h
        exact h m (by rw [h1]; simp) (by simp [h2])
    | some st =>
      refine ⟨["STACK: ".toList ++ mappingText a st], rfl, fun hall => ?_, fun pre m post h1 h2 h3 => ?_⟩
      · exfalso
        have := List.find?_some h
        exact hall st (List.mem_of_find?_eq_some h) (by simpa using this)
      · have : findStack ms = some m := by
          unfold findStack
          rw [h1, List.find?_append, List.find?_eq_none.2 (by simpa using h3)]
          simp [h2]
        rw [this] at h
        cases h
        exact ⟨_, mappingText_text a _, rfl⟩
  obtain ⟨lines, d, h1, h2, h3, h4⟩ := stackLoop_spec a readWord sp I r hr he stackIndexes 0 ⟨s2, c.out ++ first⟩ hI
  rw [haround] at h4
  rw [Nat.zero_add] at h1
  have hrun : dumpStack a maps getStackPointer readWord c =
      (if lines.length = 0 then say ("ERROR: unable to read the stack (SP=".toList ++ formatAddress a sp ++ [')']) else Py.pure ()) d := by
    unfold dumpStack
    rw [Py.run_bind_ok (inside_eq hm), hfirst, Py.run_bind_ok (sayAll_eq _ _)]
    unfold dumpStackWords
    rw [Py.run_bind_ok (inside_eq hsp), Py.run_bind_ok h1]
  by_cases hl : lines = []
  · subst hl
    refine ⟨first, ["ERROR: unable to read the stack (SP=".toList ++ formatAddress a sp ++ [')']],
      { d with out := d.out ++ ["ERROR: unable to read the stack (SP=".toList ++ formatAddress a sp ++ [')']] }, ?_, ?_, ?_, hnone, hsome,
      fun _ => ⟨_, formatAddress_text a sp, rfl⟩, ?_⟩
    · exact hrun
    · exact h2
    · show d.out ++ _ = _
      rw [h3]; simp
    · rintro ⟨x, hx, v, hv⟩
      have := h4.nil_iff.1 rfl x hx
      rw [hv] at this
      cases this
  · refine ⟨first, lines, d, ?_, h2, h3, hnone, hsome, ?_, fun _ => h4⟩
    · rw [hrun, if_neg (by rwa [List.length_eq_zero_iff])]
      rfl
    · intro hall
      exfalso
      refine hl (h4.nil_iff.2 fun x hx => ?_)
      obtain ⟨e, h⟩ := hall x hx
      show (r (sp + x)).toOption = none
      rw [h]; rfl

example := C100_stack (σ := Unit) ⟨false, false⟩ (Py.pure [⟨0x1000, 0x3000, "rw-p".toList, 0, 0, 0, 0, some "[stack]".toList⟩]) (Py.pure 0x2000)
  (fun x => if 0x1ff8 ≤ x ∧ x < 0x2004 then Py.pure 7 else Py.raise (.ptrace (some 5))) (fun _ => True)
  (fun x => if 0x1ff8 ≤ x ∧ x < 0x2004 then .ok 7 else .error (.ptrace (some 5)))
  (fun x s _ => ⟨(), trivial, by by_cases h : 0x1ff8 ≤ x ∧ x < 0x2004 <;> simp [h, Py.pure, Py.raise]⟩)
  (fun x e h => by
    split at h
    · cases h
    · cases h; rfl) ⟨(), []⟩ _ () () 0x2000 rfl rfl trivial

/-- The command `maps` shows every mapping once, in order. -/
theorem C100_maps {σ : Type} (a : Arch) (maps : Py σ (List Mapping)) (c : Con σ) (ms : List Mapping) (s : σ) (hm : maps c.inner = (.ok ms, s)) :
    ∃ lines, dumpMaps a maps c = (.ok (), ⟨s, c.out ++ lines⟩) ∧ List.Forall₂ MapsLine ms lines := by
  refine ⟨ms.map fun m => "MAPS: ".toList ++ mappingText a m, ?_, forall₂_map_mem _ fun m _ => ⟨_, mappingText_text a m, rfl⟩⟩
  unfold dumpMaps
  rw [Py.run_bind_ok (inside_eq hm), sayAll_eq]

example := C100_maps (σ := Unit) ⟨false, false⟩ (Py.pure [⟨0x1000, 0x3000, "rw-p".toList, 0, 0, 0, 0, some "[stack]".toList⟩]) ⟨(), []⟩ _ () rfl

/-- The command `backtrace` shows every frame once, in order, with its arguments; if the backtrace was cut, the last line tells the number of
frames, and otherwise there is no other line. -/
theorem C100_backtrace {σ : Type} (a : Arch) (trace : Py σ Backtrace) (c : Con σ) (t : Backtrace) (s : σ) (ht : trace c.inner = (.ok t, s)) :
    ∃ lines last, gdbBacktrace a trace c = (.ok (), ⟨s, c.out ++ lines ++ last⟩) ∧ List.Forall₂ (fun f line => FrameLine f.ip f.arguments line) t.frames lines ∧
      (t.truncated = false → last = []) ∧
      (t.truncated = true → ∃ n, decNumber n = some t.frames.length ∧ last = ["--limited to depth ".toList ++ n ++ "--".toList]) := by
  have hl : List.Forall₂ (fun f line => FrameLine f.ip f.arguments line) t.frames (t.frames.map (frameText a)) :=
    forall₂_map_mem _ fun f _ => ⟨_, _, formatAddress_text a f.ip, forall₂_map_mem _ fun v _ => hexLiteral_formatWordHex a v, rfl⟩
  have hrun : gdbBacktrace a trace c = (if t.truncated then say ("--limited to depth ".toList ++ pyDec t.frames.length ++ "--".toList) else Py.pure ())
      ⟨s, c.out ++ t.frames.map (frameText a)⟩ := by
    unfold gdbBacktrace
    rw [Py.run_bind_ok (inside_eq ht), Py.run_bind_ok (sayAll_eq _ _)]
  cases h : t.truncated with
  | true =>
    refine ⟨_, ["--limited to depth ".toList ++ pyDec t.frames.length ++ "--".toList], ?_, hl, fun h => (nomatch h), fun _ => ⟨_, decNumber_pyDec _, rfl⟩⟩
    rw [hrun, h, if_pos rfl]
    rfl
  | false =>
    refine ⟨_, [], ?_, hl, fun _ => rfl, fun h => (nomatch h)⟩
    rw [hrun, h, if_neg (by simp), List.append_nil]
    rfl

example := C100_backtrace (σ := Unit) ⟨false, false⟩ (Py.pure ⟨[⟨0x8048000, [1, 2]⟩, ⟨0x8048400, []⟩], true⟩) ⟨(), []⟩ _ () rfl

/-- The current instruction is shown with its address; a failure of the process is a line and no exception. -/
theorem C100_instr {σ : Type} (a : Arch) (one : Py σ (Nat × Str)) (code : Py (Con σ) Unit) (errText : Exc → Str) (pre : Str) (c : Con σ) :
    (∀ x asm s, one c.inner = (.ok (x, asm), s) → ∃ t, AddressText x t ∧
      displayInstr a true one code errText pre c = (.ok (), ⟨s, c.out ++ [pre ++ [' '] ++ t ++ ": ".toList ++ asm]⟩)) ∧
    (∀ n s, one c.inner = (.error (.ptrace n), s) → ∃ line, displayInstr a true one code errText pre c = (.ok (), ⟨s, c.out ++ [line]⟩) ∧
      "Unable to read current instruction: ".toList <+: line) ∧
    (∀ n d, code c = (.error (.ptrace n), d) → ∃ line, displayInstr a false one code errText pre c = (.ok (), ⟨d.inner, d.out ++ [line]⟩) ∧
      "Unable to read current instruction: ".toList <+: line) := by
  refine ⟨fun x asm s h => ⟨_, formatAddress_text a x, ?_⟩, fun n s h => ⟨"Unable to read current instruction: ".toList ++ errText (.ptrace n), ?_, List.prefix_append _ _⟩,
    fun n d h => ⟨"Unable to read current instruction: ".toList ++ errText (.ptrace n), ?_, List.prefix_append _ _⟩⟩
  · unfold displayInstr
    simp only [if_true]
    rw [Py.run_bind_ok (inside_eq h)]
    simp [say]
  · unfold displayInstr
    simp only [if_true]
    rw [Py.run_bind_error (inside_eq h)]
    rfl
  · unfold displayInstr
    simp only [Bool.false_eq_true, if_false, h]
    rfl

/-- The command `gcore` writes no dump, whatever files there are: it opens the memory as text without a buffer, which Python 3 refuses. -/
theorem C100_gcore_refuted : ¬ ∃ mapsThere memThere dumpThere maps readMem dump, gdbGcore mapsThere memThere dumpThere maps readMem = .ok dump := by
  rintro ⟨m, n, p, maps, readMem, dump, h⟩
  unfold gdbGcore openFile at h
  cases m <;> simp at h

example : regLines ⟨true, false⟩ ⟨[("rip", 64), ("r15", 64), ("eflags", 64)], [], none, none, none⟩ (fun n => if n = "rip" then 0x401000 else 7) =
    ["   rip = 0x0000000000401000".toList, "   r15 = 0x0000000000000007".toList, "eflags = 0x0000000000000007".toList] := by decide +kernel
example : ([-40, -8, 0, 8, 40] : List Int).map signedText = ["-40".toList, " -8".toList, " +0".toList, " +8".toList, "+40".toList] := by decide +kernel
example : (dumpStack (σ := Unit) ⟨false, false⟩ (Py.pure [⟨0x1000, 0x3000, "rw-p".toList, 0, 0, 0, 0, some "[stack]".toList⟩]) (Py.pure 0x2000)
    (fun x => if 0x1ff8 ≤ x ∧ x < 0x2004 then Py.pure 7 else Py.raise (.ptrace (some 5))) ⟨(), []⟩).2.out =
    ["STACK: 0x00001000-0x00003000 => [stack] (rw-p)".toList, "STACK -8: 0x00000007".toList, "STACK -4: 0x00000007".toList,
     "STACK +0: 0x00000007".toList] := by decide +kernel
example : ReadsWords (σ := Unit) (fun _ => True) (fun x => if 0x1ff8 ≤ x ∧ x < 0x2004 then Py.pure 7 else Py.raise (.ptrace (some 5)))
    (fun x => if 0x1ff8 ≤ x ∧ x < 0x2004 then .ok 7 else .error (.ptrace (some 5))) := by
  intro x s _
  refine ⟨(), trivial, ?_⟩
  by_cases h : 0x1ff8 ≤ x ∧ x < 0x2004 <;> simp [h, Py.pure, Py.raise]
example : frameText ⟨false, false⟩ ⟨0x8048000, [1, 2]⟩ = "IP=0x08048000: ??? (0x00000001, 0x00000002)".toList := by decide +kernel

end PT
