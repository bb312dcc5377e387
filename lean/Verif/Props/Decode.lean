import Verif.Spec.Decode

/-! C108: the generator `Decode` of `pydistorm.py`. -/

namespace PT
open Spec

variable {one : Nat → Bytes → Option (Nat × Str × Str)}

theorem sweep_size {offset : Nat} {code rest : Bytes} {insts : List DecodedInst} (h : Sweep one offset code insts rest) :
    rest = code.drop (insts.map DecodedInst.size).sum ∧ (insts.map DecodedInst.size).sum + rest.length = code.length := by
  induction h with
  | stop => exact ⟨rfl, by simp⟩
  | @next offset code n text hex insts rest _ _ hn _ ih =>
    rw [List.length_drop] at ih
    simp only [List.map_cons, List.sum_cons]
    refine ⟨by rw [ih.1, List.drop_drop], by omega⟩

theorem sweep_append {offset : Nat} {code mid rest : Bytes} {a b : List DecodedInst} (h1 : Sweep one offset code a mid)
    (h2 : Sweep one (offset + (a.map DecodedInst.size).sum) mid b rest) : Sweep one offset code (a ++ b) rest := by
  induction h1 with
  | stop => simpa using h2
  | @next offset code n text hex insts rest' hf hs hn _ ih =>
    refine .next hf hs hn (ih ?_)
    rw [List.map_cons, List.sum_cons] at h2
    rw [Nat.add_assoc]
    exact h2

theorem sweep_pos {offset : Nat} {code rest : Bytes} {insts : List DecodedInst} (h : Sweep one offset code insts rest) (hne : insts ≠ []) :
    0 < (insts.map DecodedInst.size).sum := by
  cases h with
  | stop => exact absurd rfl hne
  | next _ hs _ _ => rw [List.map_cons, List.sum_cons]; exact Nat.lt_of_lt_of_le hs (Nat.le_add_right _ _)

theorem mapIdx_snd (l : List DecodedInst) : (l.mapIdx fun index inst => (index, inst)).map Prod.snd = l := by
  refine List.ext_getElem? fun i => ?_
  rw [List.getElem?_map, List.getElem?_mapIdx]
  cases l[i]? <;> rfl

/-- C108. The instructions of a piece of code are one list. -/
theorem C108_unique {offset : Nat} {code : Bytes} {a b : List DecodedInst} (ha : FullSweep one offset code a) (hb : FullSweep one offset code b) :
    a = b := by
  obtain ⟨ra, ha, hea⟩ := ha
  obtain ⟨rb, hb, heb⟩ := hb
  induction ha generalizing b with
  | @stop offset code =>
    cases hb with
    | stop => rfl
    | next hf hs hn _ =>
      rcases hea with h | h
      · rw [h] at hn; exact absurd hn (by rw [List.length_nil]; omega)
      · rw [Nat.sub_self, Nat.add_zero, hf] at h; cases h
  | @next offset code n text hex insts rest hf hs hn hr ih =>
    cases hb with
    | stop =>
      rcases heb with h | h
      · rw [h] at hn; exact absurd hn (by rw [List.length_nil]; omega)
      · rw [Nat.sub_self, Nat.add_zero, hf] at h; cases h
    | @next _ _ n' text' hex' insts' _ hf' hs' hn' hr' =>
      rw [hf] at hf'
      injection hf' with h1
      injection h1 with h2 h3
      injection h3 with h3 h4
      subst h2 h3 h4
      have e1 := (sweep_size hr).2
      have e2 := (sweep_size hr').2
      rw [List.length_drop] at e1 e2
      rw [ih (by rwa [List.length_drop, show offset + n + (code.length - n - rest.length) = offset + (code.length - rest.length) by omega]) hr'
        (by rwa [List.length_drop, show offset + n + (code.length - n - rb.length) = offset + (code.length - rb.length) by omega])]

/-- One step of the loop with a decoder that does its work. -/
theorem decodeLoop_step {slots : Nat} {D : InternalDecode} (hD : FaithfulDecoder one slots D) (dt fuel offset : Nat) (code : Bytes) (buffer : List DecodedInst)
    (hne : code ≠ []) (insts : List DecodedInst) (hi : (D (offset % 2 ^ 64) code code.length dt).2 = insts) :
    (insts = [] → decodeLoop D dt (fuel + 1) offset code code.length buffer = ⟨[], .done, buffer⟩) ∧
    (insts ≠ [] → ∃ size, size = (insts.map DecodedInst.size).sum ∧ 0 < size ∧ Sweep one offset code insts (code.drop size) ∧
      (code.length : Int) - size = ((code.drop size).length : Int) ∧
      decodeLoop D dt (fuel + 1) offset code code.length buffer =
        { decodeLoop D dt fuel (offset + size) (code.drop size) (code.drop size).length (overwrite insts buffer) with
          yields := (insts.mapIdx fun index inst => (index, inst)) ++
            (decodeLoop D dt fuel (offset + size) (code.drop size) (code.drop size).length (overwrite insts buffer)).yields }) := by
  obtain ⟨h3, _, ⟨rest, hs⟩, hempty⟩ := hD offset code dt hne
  rw [hi] at hs hempty
  have hlen : ¬ ((code.length : Int) = 0) := by
    intro h
    exact hne (List.length_eq_zero_iff.1 (by omega))
  constructor
  · intro h0
    have h2 := (hempty h0).1
    unfold decodeLoop
    rw [if_neg hlen]
    simp only [hi, h0]
    rw [if_neg h3, if_neg (by intro h; exact h2 h.1), if_pos List.length_nil]
    rfl
  · intro h0
    have hsz := sweep_size hs
    refine ⟨_, rfl, sweep_pos hs h0, by rw [← hsz.1]; exact hs, ?_, ?_⟩
    · rw [← hsz.1]; omega
    · have hl : insts.length ≠ 0 := fun h => h0 (List.length_eq_zero_iff.1 h)
      have hd : (code.length : Int) - ((insts.map DecodedInst.size).sum : Nat) = ((code.drop (insts.map DecodedInst.size).sum).length : Int) := by
        rw [← hsz.1]; omega
      rw [decodeLoop, if_neg hlen]
      simp only [hi]
      rw [if_neg h3, if_neg (by intro h; exact hl h.2), if_neg hl, hd]

theorem decodeLoop_full {slots : Nat} {D : InternalDecode} (hD : FaithfulDecoder one slots D) (dt : Nat) : ∀ (fuel offset : Nat) (code : Bytes)
    (buffer : List DecodedInst), code.length < fuel →
    FullSweep one offset code (readNow (decodeLoop D dt fuel offset code code.length buffer)) ∧
      (decodeLoop D dt fuel offset code code.length buffer).result = .done := by
  intro fuel
  induction fuel with
  | zero => intro offset code buffer h; omega
  | succ fuel ih =>
    intro offset code buffer hf
    by_cases hne : code = []
    · subst hne
      exact ⟨⟨[], .stop, Or.inl rfl⟩, rfl⟩
    · obtain ⟨h0, h1⟩ := decodeLoop_step hD dt fuel offset code buffer hne _ rfl
      by_cases hi : (D (offset % 2 ^ 64) code code.length dt).2 = []
      · rw [h0 hi]
        refine ⟨⟨code, .stop, Or.inr ?_⟩, rfl⟩
        rw [Nat.sub_self, Nat.add_zero]
        exact ((hD offset code dt hne).2.2.2 hi).2
      · obtain ⟨size, hsize, hpos, hs, _, heq⟩ := h1 hi
        have hlen : (code.drop size).length < fuel := by rw [List.length_drop]; have := List.length_pos_iff.2 hne; omega
        obtain ⟨⟨rest, ihs, ihe⟩, ihr⟩ := ih (offset + size) (code.drop size) (overwrite (D (offset % 2 ^ 64) code code.length dt).2 buffer) hlen
        rw [heq]
        refine ⟨⟨rest, ?_, ?_⟩, ihr⟩
        · unfold readNow at ihs ⊢
          rw [List.map_append, mapIdx_snd]
          exact sweep_append hs (by rw [← hsize]; exact ihs)
        · rcases ihe with h | h
          · exact Or.inl h
          · refine Or.inr ?_
            have e1 := (sweep_size ihs).2
            have e2 := (sweep_size hs).2
            rw [List.length_drop] at e1 e2
            rw [List.length_drop] at h
            rwa [show offset + size + (code.length - size - rest.length) = offset + (code.length - rest.length) by omega] at h

/-- C108. However many instructions the C function writes at a time, those yielded are the instructions of the code, if each is used before the
next is asked for. -/
theorem C108_stream {slots : Nat} {D : InternalDecode} (hD : FaithfulDecoder one slots D) (offset : Nat) (code : Bytes) (dt : Nat) (hdt : dt ∈ [0, 1, 2])
    (fuel : Nat) (hf : code.length < fuel) :
    FullSweep one offset code (readNow (decodeRun D fuel offset code dt)) ∧ (decodeRun D fuel offset code dt).result = .done := by
  unfold decodeRun
  rw [if_neg (not_not.2 hdt)]
  exact decodeLoop_full hD dt fuel offset code [] hf

/-- C108. The instructions of a piece of code follow each other. -/
theorem C108_contiguous {offset : Nat} {code rest : Bytes} {insts : List DecodedInst} (h : Sweep one offset code insts rest) (i : Nat) (x : DecodedInst)
    (hx : insts[i]? = some x) :
    x.offset = (offset + ((insts.take i).map DecodedInst.size).sum) % 2 ^ 64 ∧ 0 < x.size ∧
    ((insts.take i).map DecodedInst.size).sum + x.size ≤ code.length := by
  induction h generalizing i with
  | stop => cases hx
  | @next offset code n text hex insts rest hf hs hn hr ih =>
    cases i with
    | zero =>
      injection hx with hx
      rw [← hx]
      exact ⟨by simp, hs, by simpa using hn⟩
    | succ i =>
      obtain ⟨h1, h2, h3⟩ := ih i hx
      rw [List.length_drop] at h3
      rw [List.take_succ_cons, List.map_cons, List.sum_cons]
      exact ⟨by rw [h1, Nat.add_assoc], h2, by show n + _ + _ ≤ _; omega⟩

/-- The first slot at the end holds the first instruction of the last batch. -/
theorem decodeLoop_slot {slots : Nat} {D : InternalDecode} (hD : FaithfulDecoder one slots D) (dt : Nat) : ∀ (fuel offset : Nat) (code : Bytes)
    (buffer : List DecodedInst), code.length < fuel →
    ((decodeLoop D dt fuel offset code code.length buffer).yields = [] ∧ (decodeLoop D dt fuel offset code code.length buffer).buffer = buffer) ∨
    ∃ x k, (decodeLoop D dt fuel offset code code.length buffer).buffer[0]? = some x ∧ k < code.length ∧ x.offset = (offset + k) % 2 ^ 64 := by
  intro fuel
  induction fuel with
  | zero => intro offset code buffer h; omega
  | succ fuel ih =>
    intro offset code buffer hf
    by_cases hne : code = []
    · subst hne
      exact Or.inl ⟨rfl, rfl⟩
    · obtain ⟨h0, h1⟩ := decodeLoop_step hD dt fuel offset code buffer hne _ rfl
      by_cases hi : (D (offset % 2 ^ 64) code code.length dt).2 = []
      · rw [h0 hi]
        exact Or.inl ⟨rfl, rfl⟩
      · obtain ⟨size, hsize, hpos, hs, _, heq⟩ := h1 hi
        have hl0 := List.length_pos_iff.2 hne
        have hlen : (code.drop size).length < fuel := by rw [List.length_drop]; omega
        refine Or.inr ?_
        rw [heq]
        rcases ih (offset + size) (code.drop size) (overwrite (D (offset % 2 ^ 64) code code.length dt).2 buffer) hlen with ⟨_, hb⟩ | ⟨x, k, hx, hk, ho⟩
        · simp only [hb]
          generalize (D (offset % 2 ^ 64) code code.length dt).2 = insts at hi hs
          generalize code.drop size = rest at hs
          cases hs with
          | stop => exact absurd rfl hi
          | next _ _ _ _ => exact ⟨_, 0, rfl, hl0, rfl⟩
        · rw [List.length_drop] at hk
          exact ⟨x, size + k, hx, by omega, by rw [ho, Nat.add_assoc]⟩

/-- C108. Used later, the instructions are right if the C function wrote all of them at once. -/
theorem C108_later_partial {slots : Nat} {D : InternalDecode} (hD : FaithfulDecoder one slots D) (offset : Nat) (code : Bytes) (dt : Nat) (hdt : dt ∈ [0, 1, 2])
    (fuel : Nat) (hf : code.length + 1 < fuel) (hone : FullSweep one offset code (D (offset % 2 ^ 64) code code.length dt).2) :
    readLater (decodeRun D fuel offset code dt) = (readNow (decodeRun D fuel offset code dt)).map some := by
  unfold decodeRun
  rw [if_neg (not_not.2 hdt)]
  obtain ⟨fuel, rfl⟩ : ∃ n, fuel = n + 1 := ⟨fuel - 1, by omega⟩
  by_cases hne : code = []
  · subst hne; rfl
  · obtain ⟨h0, h1⟩ := decodeLoop_step hD dt fuel offset code [] hne _ rfl
    by_cases hi : (D (offset % 2 ^ 64) code code.length dt).2 = []
    · rw [h0 hi]; rfl
    · obtain ⟨size, hsize, hpos, hs, _, heq⟩ := h1 hi
      have hfull := (decodeLoop_full hD dt (fuel + 1) offset code [] (by omega)).1
      have hsame := C108_unique hone hfull
      have hy : (decodeLoop D dt fuel (offset + size) (code.drop size) (code.drop size).length
          (overwrite (D (offset % 2 ^ 64) code code.length dt).2 [])).yields = [] := by
        rw [heq] at hsame
        unfold readNow at hsame
        rw [List.map_append, mapIdx_snd] at hsame
        have := List.append_cancel_left ((List.append_nil _).trans hsame)
        exact List.map_eq_nil_iff.1 this.symm
      have hlen : (code.drop size).length < fuel := by rw [List.length_drop]; omega
      have hb : (decodeLoop D dt fuel (offset + size) (code.drop size) (code.drop size).length
          (overwrite (D (offset % 2 ^ 64) code code.length dt).2 [])).buffer = (D (offset % 2 ^ 64) code code.length dt).2 := by
        have hov : overwrite (D (offset % 2 ^ 64) code code.length dt).2 [] = (D (offset % 2 ^ 64) code code.length dt).2 := by
          unfold overwrite; rw [List.drop_nil, List.append_nil]
        have hlast := (hfull)
        obtain ⟨m, rfl⟩ : ∃ m, fuel = m + 1 := ⟨fuel - 1, by omega⟩
        by_cases hne' : code.drop size = []
        · rw [hne', hov]; rfl
        · obtain ⟨g0, g1⟩ := decodeLoop_step hD dt m (offset + size) (code.drop size) (overwrite (D (offset % 2 ^ 64) code code.length dt).2 []) hne' _ rfl
          by_cases hi' : (D ((offset + size) % 2 ^ 64) (code.drop size) (code.drop size).length dt).2 = []
          · rw [g0 hi', hov]
          · obtain ⟨size', _, _, _, _, heq'⟩ := g1 hi'
            rw [heq'] at hy
            have := (List.append_eq_nil_iff.1 hy).1
            rw [List.mapIdx_eq_nil_iff] at this
            exact absurd this hi'
      rw [heq]
      unfold readLater readNow
      simp only [hy, List.append_nil, hb, mapIdx_snd]
      generalize (D (offset % 2 ^ 64) code code.length dt).2 = l
      refine List.ext_getElem? fun i => ?_
      rw [List.getElem?_map, List.getElem?_mapIdx, List.getElem?_map]
      cases hx : l[i]? with
      | none => rfl
      | some x => simp [hx]

/-- C108 is false for instructions used later: if there are more than the buffer has slots, the first one yielded shows another
instruction at the end. -/
theorem C108_later_refuted {slots : Nat} {D : InternalDecode} (hD : FaithfulDecoder one slots D) (offset : Nat) (code : Bytes) (dt : Nat) (hdt : dt ∈ [0, 1, 2])
    (fuel : Nat) (hf : code.length < fuel) (hc : code.length < 2 ^ 64) (hm : slots < (readNow (decodeRun D fuel offset code dt)).length) :
    ∃ x y, (readNow (decodeRun D fuel offset code dt)).head? = some x ∧ (readLater (decodeRun D fuel offset code dt)).head? = some (some y) ∧
      x.offset ≠ y.offset := by
  unfold decodeRun at hm ⊢
  rw [if_neg (not_not.2 hdt)] at hm ⊢
  obtain ⟨fuel, rfl⟩ : ∃ n, fuel = n + 1 := ⟨fuel - 1, by omega⟩
  by_cases hne : code = []
  · subst hne; exact absurd hm (Nat.not_lt_zero _)
  · obtain ⟨h0, h1⟩ := decodeLoop_step hD dt fuel offset code [] hne _ rfl
    by_cases hi : (D (offset % 2 ^ 64) code code.length dt).2 = []
    · rw [h0 hi] at hm; exact absurd hm (Nat.not_lt_zero _)
    · obtain ⟨size, hsize, hpos, hs, _, heq⟩ := h1 hi
      have hl0 := List.length_pos_iff.2 hne
      have hlen : (code.drop size).length < fuel := by rw [List.length_drop]; omega
      have hslots := (hD offset code dt hne).2.1
      rw [heq] at hm ⊢
      rcases decodeLoop_slot hD dt fuel (offset + size) (code.drop size) (overwrite (D (offset % 2 ^ 64) code code.length dt).2 []) hlen with ⟨hy, _⟩ | ⟨y, k, hy, hk, ho⟩
      · unfold readNow at hm
        rw [hy, List.append_nil, mapIdx_snd] at hm
        omega
      · rw [List.length_drop] at hk
        generalize (D (offset % 2 ^ 64) code code.length dt).2 = insts at hi hs hy ⊢
        obtain ⟨rest, hs⟩ : ∃ rest, Sweep one offset code insts rest := ⟨_, hs⟩
        cases hs with
        | stop => exact absurd rfl hi
        | next _ _ _ _ =>
          refine ⟨_, y, by unfold readNow; simp only [List.mapIdx_cons, List.cons_append, List.map_cons, List.head?_cons]; rfl, ?_, ?_⟩
          · unfold readLater
            simp only [List.mapIdx_cons, List.cons_append, List.map_cons, List.head?_cons, hy]
          · show offset % 2 ^ 64 ≠ _
            rw [ho]
            omega

/-- C108. A kind of code that does not exist is refused before anything is decoded. -/
theorem C108_kind (D : InternalDecode) (fuel offset : Nat) (code : Bytes) (dt : Nat) (hdt : 2 < dt) :
    decodeRun D fuel offset code dt = ⟨[], .index, []⟩ := by
  unfold decodeRun
  rw [if_pos]
  simp
  omega

example := C108_kind (fun _ _ _ _ => (0, [])) 10 0 [1, 2] 3 (by decide)

theorem decodeLoop_ends (D : InternalDecode) (dt : Nat) : ∀ (fuel offset : Nat) (code : Bytes) (len : Int) (buffer : List DecodedInst),
    ((decodeLoop D dt fuel offset code len buffer).result = .value → ∃ o c l, (D o c l dt).1 = 3) ∧
    ((decodeLoop D dt fuel offset code len buffer).result = .memory → ∃ o c l, (D o c l dt).1 = 2 ∧ (D o c l dt).2 = []) ∧
    (decodeLoop D dt fuel offset code len buffer).result ≠ .index := by
  intro fuel
  induction fuel with
  | zero => intro offset code len buffer; exact ⟨(fun h => by cases h), (fun h => by cases h), (fun h => by cases h)⟩
  | succ fuel ih =>
    intro offset code len buffer
    unfold decodeLoop
    split
    · exact ⟨(fun h => by cases h), (fun h => by cases h), (fun h => by cases h)⟩
    · simp only
      split
      · rename_i h
        exact ⟨fun _ => ⟨_, _, _, h⟩, (fun h => by cases h), (fun h => by cases h)⟩
      · split
        · rename_i h
          exact ⟨(fun h => by cases h), fun _ => ⟨_, _, _, h.1, List.length_eq_zero_iff.1 h.2⟩, (fun h => by cases h)⟩
        · split
          · exact ⟨(fun h => by cases h), (fun h => by cases h), (fun h => by cases h)⟩
          · exact ih _ _ _ _

/-- C108. The two errors in the middle come from the C function: `ValueError` if it refused its input, `MemoryError` if it had no room for a single
instruction. -/
theorem C108_errors (D : InternalDecode) (fuel offset : Nat) (code : Bytes) (dt : Nat) (hdt : dt ∈ [0, 1, 2]) :
    ((decodeRun D fuel offset code dt).result = .value → ∃ o c l, (D o c l dt).1 = 3) ∧
    ((decodeRun D fuel offset code dt).result = .memory → ∃ o c l, (D o c l dt).1 = 2 ∧ (D o c l dt).2 = []) ∧
    (decodeRun D fuel offset code dt).result ≠ .index := by
  unfold decodeRun
  rw [if_neg (not_not.2 hdt)]
  exact decodeLoop_ends D dt fuel offset code _ []

example := C108_errors (fun _ _ _ _ => (3, [])) 10 0 [1, 2] 1 (by decide)

theorem decodeLoop_asked (D : InternalDecode) (dt : Nat) {offset o : Nat} {code c : Bytes} {len l : Int} (h : Asked D dt offset code len o c l) :
    ∀ (fuel : Nat) (buffer : List DecodedInst),
    ((D (o % 2 ^ 64) c l dt).1 = 3 → (decodeLoop D dt fuel offset code len buffer).result ∈ [.value, .diverge]) ∧
    ((D (o % 2 ^ 64) c l dt).1 = 2 → (D (o % 2 ^ 64) c l dt).2 = [] → (decodeLoop D dt fuel offset code len buffer).result ∈ [.memory, .diverge]) := by
  induction h with
  | @first offset code len h =>
    intro fuel buffer
    cases fuel with
    | zero => exact ⟨fun _ => List.mem_cons_of_mem _ List.mem_cons_self, fun _ _ => List.mem_cons_of_mem _ List.mem_cons_self⟩
    | succ fuel =>
      rw [decodeLoop, if_neg h]
      simp only
      refine ⟨fun h3 => ?_, fun h2 h0 => ?_⟩
      · rw [if_pos h3]; exact List.mem_cons_self
      · rw [if_neg (by omega), if_pos ⟨h2, by rw [h0]; rfl⟩]; exact List.mem_cons_self
  | @next offset o code c len l h hok hsome _ ih =>
    intro fuel buffer
    cases fuel with
    | zero => exact ⟨fun _ => List.mem_cons_of_mem _ List.mem_cons_self, fun _ _ => List.mem_cons_of_mem _ List.mem_cons_self⟩
    | succ fuel =>
      rw [decodeLoop, if_neg h]
      simp only
      have hl : (D (offset % 2 ^ 64) code len dt).2.length ≠ 0 := fun h => hsome (List.length_eq_zero_iff.1 h)
      rw [if_neg hok, if_neg (fun h => hl h.2), if_neg hl]
      exact ih fuel _

/-- C108. A complaint of any call of the C function ends the generator with the error that belongs to it, if the generator ends. -/
theorem C108_complains (D : InternalDecode) (fuel offset : Nat) (code : Bytes) (dt : Nat) (hdt : dt ∈ [0, 1, 2]) (o : Nat) (c : Bytes) (l : Int)
    (h : Asked D dt offset code code.length o c l) :
    ((D (o % 2 ^ 64) c l dt).1 = 3 → (decodeRun D fuel offset code dt).result ∈ [.value, .diverge]) ∧
    ((D (o % 2 ^ 64) c l dt).1 = 2 → (D (o % 2 ^ 64) c l dt).2 = [] → (decodeRun D fuel offset code dt).result ∈ [.memory, .diverge]) := by
  unfold decodeRun
  rw [if_neg (not_not.2 hdt)]
  exact decodeLoop_asked D dt h fuel []

example := C108_complains (fun offset _ _ _ => if offset = 0 then (1, [⟨0, 1, "NOP".toList, "90".toList⟩]) else (3, [])) 9 0 [1, 2] 1 (by decide) 1 [2] 1
  (.next (by decide) (by decide) (by decide) (.first (by decide)))

/-- C108. Instructions already yielded stay yielded when the C function complains about a later call. -/
theorem C108_kept (D : InternalDecode) (fuel offset : Nat) (code : Bytes) (dt : Nat) (hdt : dt ∈ [0, 1, 2]) (hne : code ≠ [])
    (hok : (D (offset % 2 ^ 64) code code.length dt).1 ≠ 3) :
    (D (offset % 2 ^ 64) code code.length dt).2 <+: readNow (decodeRun D (fuel + 1) offset code dt) := by
  unfold decodeRun
  rw [if_neg (not_not.2 hdt)]
  by_cases h0 : (D (offset % 2 ^ 64) code code.length dt).2 = []
  · rw [h0]; exact List.nil_prefix
  have hlen : ¬ ((code.length : Int) = 0) := by
    intro h
    exact hne (List.length_eq_zero_iff.1 (by omega))
  have hl : (D (offset % 2 ^ 64) code code.length dt).2.length ≠ 0 := fun h => h0 (List.length_eq_zero_iff.1 h)
  rw [decodeLoop, if_neg hlen]
  simp only
  rw [if_neg hok, if_neg (by intro h; exact hl h.2), if_neg hl]
  unfold readNow
  rw [List.map_append, mapIdx_snd]
  exact List.prefix_append _ _

/-- A made-up processor: each byte below 16 is an instruction of one byte, 16 begins one of two bytes. -/
def toyInst (_ : Nat) (code : Bytes) : Option (Nat × Str × Str) :=
  match code with
  | [] => none
  | b :: rest =>
    if b.val < 16 then some (1, "NOP".toList, pyDec b.val)
    else if b.val = 16 ∧ rest ≠ [] then some (2, "INT".toList, pyDec b.val)
    else none

/-- As many instructions as there are slots. -/
def toyBatch : Nat → Nat → Bytes → List DecodedInst
  | 0, _, _ => []
  | slots + 1, offset, code =>
    match toyInst (offset % 2 ^ 64) code with
    | none => []
    | some (n, text, hex) => ⟨offset % 2 ^ 64, n, text, hex⟩ :: toyBatch slots (offset + n) (code.drop n)

/-- A decoder for it with room for two instructions. -/
def toyDecoder : InternalDecode := fun offset code _ _ => (1, toyBatch 2 offset code)

theorem toyBatch_congr (slots : Nat) : ∀ (a b : Nat) (code : Bytes), a % 2 ^ 64 = b % 2 ^ 64 → toyBatch slots a code = toyBatch slots b code := by
  induction slots with
  | zero => intro a b code _; rfl
  | succ n ih =>
    intro a b code h
    unfold toyBatch
    rw [h]
    cases toyInst (b % 2 ^ 64) code with
    | none => rfl
    | some x =>
      simp only
      rw [ih (a + x.1) (b + x.1) _ (by omega)]

theorem toyInst_some {o n : Nat} {code : Bytes} {text hex : Str} (h : toyInst o code = some (n, text, hex)) : 0 < n ∧ n ≤ code.length := by
  unfold toyInst at h
  split at h
  · cases h
  · split at h
    · injection h with h; injection h with h _; subst h; exact ⟨by omega, by simp⟩
    · split at h
      · rename_i b rest _ hc
        injection h with h; injection h with h _; subst h
        have := List.length_pos_iff.2 hc.2
        exact ⟨by omega, by rw [List.length_cons]; omega⟩
      · cases h

theorem toyBatch_sweep (slots : Nat) : ∀ (offset : Nat) (code : Bytes), (toyBatch slots offset code).length ≤ slots ∧
    ∃ rest, Sweep toyInst offset code (toyBatch slots offset code) rest := by
  induction slots with
  | zero => intro offset code; exact ⟨Nat.le_refl _, code, .stop⟩
  | succ n ih =>
    intro offset code
    unfold toyBatch
    cases h : toyInst (offset % 2 ^ 64) code with
    | none => exact ⟨Nat.zero_le _, code, .stop⟩
    | some x =>
      obtain ⟨hl, rest, hs⟩ := ih (offset + x.1) (code.drop x.1)
      have := toyInst_some h
      exact ⟨Nat.succ_le_succ hl, rest, .next h this.1 this.2 hs⟩

theorem toyDecoder_faithful : FaithfulDecoder toyInst 2 toyDecoder := by
  intro offset code dt hne
  have hc : toyBatch 2 (offset % 2 ^ 64) code = toyBatch 2 offset code := toyBatch_congr 2 _ _ _ (Nat.mod_mod _ _)
  unfold toyDecoder
  simp only [hc]
  refine ⟨by decide, (toyBatch_sweep 2 offset code).1, (toyBatch_sweep 2 offset code).2, fun h => ⟨by decide, ?_⟩⟩
  unfold toyBatch at h
  cases h' : toyInst (offset % 2 ^ 64) code with
  | none => rfl
  | some x => rw [h'] at h; cases h

example := C108_contiguous (one := toyInst) (offset := 2 ^ 64 - 2) (code := [1, 16, 5, 77]) (rest := [77])
  (.next rfl (by decide) (by decide) (.next rfl (by decide) (by decide) .stop)) 1 _ rfl

example := C108_later_partial toyDecoder_faithful 0 [1, 16, 5, 77] 1 (by decide) 10 (by decide)
  ⟨[77], .next rfl (by decide) (by decide) (.next rfl (by decide) (by decide) .stop), Or.inr (by decide +kernel)⟩

example := C108_unique (one := toyInst) (offset := 0) (code := [1, 16, 5, 77])
  ⟨[77], .next rfl (by decide) (by decide) (.next rfl (by decide) (by decide) .stop), Or.inr (by decide +kernel)⟩
  ⟨[77], .next rfl (by decide) (by decide) (.next rfl (by decide) (by decide) .stop), Or.inr (by decide +kernel)⟩

/-- Three instructions in two batches, at the end of the address space; the last byte is none. -/
example : decodeRun toyDecoder 10 (2 ^ 64 - 2) [1, 16, 5, 2, 77] 2 =
    ⟨[(0, ⟨2 ^ 64 - 2, 1, "NOP".toList, "1".toList⟩), (1, ⟨2 ^ 64 - 1, 2, "INT".toList, "16".toList⟩), (0, ⟨1, 1, "NOP".toList, "2".toList⟩)], .done,
      [⟨1, 1, "NOP".toList, "2".toList⟩, ⟨2 ^ 64 - 1, 2, "INT".toList, "16".toList⟩]⟩ := by decide +kernel

example : FullSweep toyInst (2 ^ 64 - 2) [1, 16, 5, 2, 77] (readNow (decodeRun toyDecoder 10 (2 ^ 64 - 2) [1, 16, 5, 2, 77] 2)) :=
  (C108_stream toyDecoder_faithful _ _ _ (by decide) _ (by decide)).1

/-- A decoder that finds one instruction and refuses what is behind it. -/
example : let D : InternalDecode := fun offset _ _ _ => if offset = 0 then (1, [⟨0, 1, "NOP".toList, "90".toList⟩]) else (3, [])
    Asked D 1 0 [1, 2] 2 1 [2] 1 ∧ (D 1 [2] 1 1).1 = 3 ∧ (decodeRun D 9 0 [1, 2] 1).result = .value :=
  ⟨.next (by decide) (by decide) (by decide) (.first (by decide)), rfl, by decide +kernel⟩

/-- Used later, the first one looks like the third. -/
example : ∃ x y, (readNow (decodeRun toyDecoder 10 0 [1, 16, 5, 2, 77] 1)).head? = some x ∧
    (readLater (decodeRun toyDecoder 10 0 [1, 16, 5, 2, 77] 1)).head? = some (some y) ∧ x.offset ≠ y.offset :=
  C108_later_refuted toyDecoder_faithful _ _ _ (by decide) _ (by decide) (by decide) (by decide +kernel)

example : FullSweep toyInst 0 [1, 16, 5, 77] (toyDecoder 0 [1, 16, 5, 77] 4 1).2 :=
  ⟨[77], .next rfl (by decide) (by decide) (.next rfl (by decide) (by decide) .stop), Or.inr (by decide +kernel)⟩

end PT
