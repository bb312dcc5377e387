import Verif.Props.ArgText

/-! ### C84 when the kernel gives less than asked for -/

namespace PT
open Spec

/-- The text of a file argument once the string is read. -/
theorem fileText {E : ArgEnv MemSt} (hp : ∀ c, E.printable c = true → c.isValidChar) {c : SysCall} {a : SysArg} (ha : FileArgument c a) (h0 : a.value ≠ 0) {s s' : MemSt}
    {data : Bytes} {truncated : Bool} (hrun : E.readCString a.value E.stringMax s = (.ok (data, truncated), s')) :
    ∃ text rest, argText E c a s = (.ok text, s') ∧ literalBytes text = some (data.map (·.val), (if truncated then "...".toList else []) ++ rest) ∧
      AddressSuffix E.writeAddress a.value rest := by
  obtain ⟨rest, hs1, hs2⟩ := pointer_suffix E h0 (stringText E.printable data truncated)
  refine ⟨E.pointer (stringText E.printable data truncated) a.value, rest, ?_, by rw [hs1, literal_stringText hp], hs2⟩
  apply argText_some
  rw [createText_file E ha]
  have : argReadCString E a.value s = (.ok (E.pointer (stringText E.printable data truncated) a.value), s') := by
    unfold argReadCString
    rw [if_pos h0, Py.run_bind_ok hrun]
    rfl
  rw [Py.run_bind_ok this]
  rfl

/-- C84 for a paged address space, where a read stops short at a page that is not mapped: the text of a file argument is a literal of the beginning of the C
string in the memory of the tracee, of at most `stringMax` bytes; without `...` it is the whole string. -/
theorem C84_paged_partial (E : ArgEnv MemSt) (hp : ∀ c, E.printable c = true → c.isValidChar) (k : Kernel) (mapped : Nat → Bool) (ps : Nat)
    (hk : Paged k mapped ps) (hps : 256 ≤ ps) (fuel : Nat) (hE : ∀ a m, E.readCString a m = readCString k fuel a m 256) (c : SysCall) (a : SysArg)
    (ha : FileArgument c a) (h0 : a.value ≠ 0) (s : MemSt) (hr : ∃ r, (E.readCString a.value E.stringMax s).1 = .ok r) :
    ∃ text s' data dots rest, argText E c a s = (.ok text, s') ∧ s'.mem = s.mem ∧ literalBytes text = some (data.map (·.val), dots ++ rest) ∧
      AddressSuffix E.writeAddress a.value rest ∧ data.length ≤ E.stringMax ∧ (∀ w, IsCString s.mem a.value w → data <+: w) ∧
      (dots = [] ∧ IsCString s.mem a.value data ∨ dots = "...".toList) := by
  obtain ⟨⟨data, truncated⟩, hr⟩ := hr
  have hrun : E.readCString a.value E.stringMax s = (.ok (data, truncated), (E.readCString a.value E.stringMax s).2) := Prod.ext hr rfl
  obtain ⟨text, rest, h1, h2, h3⟩ := fileText hp ha h0 hrun
  rw [hE] at hr
  obtain ⟨hm, hl, hc, hpre⟩ := Props.C11_paged_partial k mapped ps hk fuel a.value E.stringMax 256 (by decide) hps s data truncated hr
  rw [← hE] at hm
  refine ⟨text, _, data, _, rest, h1, hm, h2, h3, hl, hpre, ?_⟩
  cases truncated with
  | false => exact .inl ⟨rfl, hc rfl⟩
  | true => exact .inr rfl

-- a file name that ends three bytes before the end of the mapped pages: one reply is short
example := C84_paged_partial (exArgEnv Props.exPaged exPrintable fun _ => 0) exPrintable_valid Props.exPaged (fun x => decide (x < 4096)) 4096 Props.exPaged_paged (by decide)
  3 (fun _ _ => rfl) ⟨"open", "long", []⟩ ⟨4090, some "const char *", some "filename", none⟩ ⟨Or.inl rfl, "filename", by decide, rfl⟩ (by decide)
  { mem := fun x => if x < 4093 then 65 else 0 } ⟨([65, 65, 65], false), by decide +kernel⟩

/-- With at most two chunks before the limit, a string is told without the flag only when the first read holds all of it. -/
theorem readCString_first (k : Kernel) (fuel a lim : Nat) (hl : lim ≤ 512) (s : MemSt) (t : Bytes) (h : (readCString k fuel a lim 256 s).1 = .ok (t, false)) :
    IsCString s.mem a t ∧ (readCString k fuel a lim 256 s).2.mem = s.mem := by
  unfold readCString at h ⊢
  cases fuel with
  | zero => cases h
  | succ fuel =>
    rw [readCStringLoop] at h ⊢
    have hr := readBytes_readRun k a 256 s
    cases hrd : readBytes k a 256 s with
    | mk res s1 =>
      rw [hrd] at hr
      cases res with
      | error e => rw [Py.bind_eq_error hrd] at h; cases h
      | ok data =>
        rw [Py.bind_eq_ok hrd] at h ⊢
        by_cases hmx : lim ≤ 0 + 256
        · simp only [if_pos hmx] at h; cases h
        · simp only [if_neg hmx] at h ⊢
          cases hf : findNul data with
          | some p =>
            simp only [hf, Option.isSome_some, if_true] at h ⊢
            have ht : data.take p = t := by
              have : (Except.ok ([] ++ data.take p, false) : Except Exc (Bytes × Bool)) = .ok (t, false) := h
              injection this with this
              injection this
            obtain ⟨hp, h0, hn⟩ := findNul_some hf
            have hd := (hr.result data rfl).2
            have at_ : ∀ i (hi : i < data.length), data[i] = s.mem (a + i) := by
              intro i hi
              have : data[i]? = (bytesAt s.mem a data.length)[i]? := by rw [← hd]
              simpa [bytesAt, hi] using this
            refine ⟨?_, hr.mem⟩
            subst ht
            have hl' : (data.take p).length = p := by simp; omega
            refine ⟨fun i hi => ?_, by rw [hl', ← at_ p hp, h0]⟩
            have hi' : i < p := by omega
            rw [List.getElem_take, ← at_ i (by omega)]
            exact ⟨rfl, hn i hi'⟩
          | none =>
            simp only [hf, Option.isSome_none, Bool.false_eq_true, if_false] at h
            exfalso
            cases fuel with
            | zero => cases h
            | succ fuel =>
              rw [readCStringLoop] at h
              cases hrd : readBytes k (a + 256) 256 s1 with
              | mk res s2 =>
                cases res with
                | error e => rw [Py.bind_eq_error hrd] at h; cases h
                | ok data =>
                  rw [Py.bind_eq_ok hrd] at h
                  simp only [if_pos (show lim ≤ 0 + 256 + 256 by omega)] at h
                  cases h

/-- C84 for any kernel, with the limit of `strace.py` (300) or any up to two chunks: a text without `...` is the whole string. Missing: that a text with `...`
shows the beginning of the string (see the refutation). -/
theorem C84_whole_partial (E : ArgEnv MemSt) (hp : ∀ c, E.printable c = true → c.isValidChar) (hmax : E.stringMax ≤ 512) (k : Kernel) (fuel : Nat)
    (hE : ∀ a m, E.readCString a m = readCString k fuel a m 256) (c : SysCall) (a : SysArg) (ha : FileArgument c a) (h0 : a.value ≠ 0) (s : MemSt)
    (hr : ∃ r, (E.readCString a.value E.stringMax s).1 = .ok r) :
    ∃ text s' data dots rest, argText E c a s = (.ok text, s') ∧ literalBytes text = some (data.map (·.val), dots ++ rest) ∧ AddressSuffix E.writeAddress a.value rest ∧
      (dots = [] ∧ IsCString s.mem a.value data ∧ s'.mem = s.mem ∨ dots = "...".toList) := by
  obtain ⟨⟨data, truncated⟩, hr⟩ := hr
  have hrun : E.readCString a.value E.stringMax s = (.ok (data, truncated), (E.readCString a.value E.stringMax s).2) := Prod.ext hr rfl
  obtain ⟨text, rest, h1, h2, h3⟩ := fileText hp ha h0 hrun
  refine ⟨text, _, data, _, rest, h1, h2, h3, ?_⟩
  cases truncated with
  | false =>
    rw [hE] at hr ⊢
    have := readCString_first k fuel a.value E.stringMax hmax s data hr
    exact .inl ⟨rfl, this⟩
  | true => exact .inr rfl

/-- A kernel that gives one byte at a time. -/
def bytewise : Kernel := { exKernel64 with readReply := fun _ _ _ => .count 1 }

example := C84_whole_partial (exArgEnv bytewise exPrintable fun _ => 0) exPrintable_valid (by decide) bytewise 3 (fun _ _ => rfl) ⟨"open", "long", []⟩
  ⟨4096, some "const char *", some "filename", none⟩ ⟨Or.inl rfl, "filename", by decide, rfl⟩ (by decide) (exMemory [65, 66]) ⟨([65], true), by decide +kernel⟩

/-- A string of 257 bytes: `A`, 255 times `B`, `C`. -/
def longName : List Nat := 65 :: (List.replicate 255 66 ++ [67])

/-- C84 is false for a kernel that may cut a read anywhere: the argument begins with `AB`, and the text is `'AC'...`. -/
theorem C84_short_refuted : FileArgument ⟨"open", "long", []⟩ ⟨4096, some "const char *", some "filename", none⟩ ∧
    IsCString (exMemory longName).mem 4096 (longName.map (Fin.ofNat 256)) ∧ ¬ [65, 67] <+: longName ∧
    (argText (exArgEnv bytewise exPrintable fun _ => 0) ⟨"open", "long", []⟩ ⟨4096, some "const char *", some "filename", none⟩ (exMemory longName)).1
      = .ok "'AC'...".toList := by
  refine ⟨⟨Or.inl rfl, "filename", by decide, rfl⟩, ⟨?_, by decide +kernel⟩, by decide +kernel, by decide +kernel⟩
  have : ∀ i : Fin 257, (longName.map (Fin.ofNat 256))[i.val]? = some ((exMemory longName).mem (4096 + i.val)) ∧ (exMemory longName).mem (4096 + i.val) ≠ 0 := by decide +kernel
  intro i hi
  have hlen : (longName.map (Fin.ofNat 256)).length = 257 := by decide +kernel
  have h := this ⟨i, hlen ▸ hi⟩
  refine ⟨?_, h.2⟩
  have h1 := h.1
  rw [List.getElem?_eq_getElem hi] at h1
  exact Option.some.inj h1

end PT
