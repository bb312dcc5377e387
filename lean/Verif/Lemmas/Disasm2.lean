import Verif.Lemmas.Disasm

namespace PT
open Props

/-- The instruction of a listing item with its bytes. -/
def itemInstr (mem : Nat → Byte) (x : Spec.CodeItem) : Instr := ⟨x.1, x.2.1, x.2.2, Spec.codeAt mem x.1 x.2.1⟩

theorem mem_shown {stop : Option Nat} : ∀ {n : Nat} {l : List Spec.CodeItem} {x : Spec.CodeItem}, x ∈ Spec.shown stop n l → x ∈ l
  | 0, _, _, h => by simp [Spec.shown] at h
  | _ + 1, [], _, h => by simp [Spec.shown] at h
  | n + 1, y :: l, x, h => by
    simp only [Spec.shown, List.mem_cons] at h ⊢
    rcases h with h | h
    · exact Or.inl h
    · right
      by_cases hs : stop.any (fun st => st ≤ y.1 + y.2.1)
      · rw [if_pos hs] at h; simp at h
      · rw [if_neg hs] at h; exact mem_shown h

theorem BpInv.same {h : BpHost} {orig : Nat → Byte} {p q : BpSt} (hi : BpInv h orig p) (hs : Same p q) : BpInv h orig q := by
  have hp : places q = places p := by unfold places; rw [hs.dict, hs.objs]
  refine ⟨hs.running.trans hi.running, ?_, ?_, ?_, ?_, ?_⟩
  · rw [hs.dict, hs.objs]; exact hi.ents
  · rw [hs.dict]; exact hi.keys
  · rw [hs.dict, hs.objs]; exact hi.disj
  · rw [hs.dict, hs.objs]; exact hi.inst
  · rw [hp, hs.mem]; exact hi.mem

/-- What the key lookup of the breakpoint dictionary means. -/
theorem dictGet_place {h : BpHost} {orig : Nat → Byte} {p : BpSt} (hi : BpInv h orig p) (a : Nat) :
    (∃ b, (dictGet p.dict a).bind (fun id => p.objs[id]?) = some b ∧ (a, b.size) ∈ places p ∧
      b.oldBytes = bytesAt orig a b.size) ∨
    ((dictGet p.dict a).bind (fun id => p.objs[id]?) = none ∧ ∀ q ∈ places p, q.1 ≠ a) := by
  unfold dictGet
  cases hf : p.dict.find? (fun e => decide (e.1 = a)) with
  | none =>
    right
    refine ⟨rfl, ?_⟩
    intro q hq hqa
    obtain ⟨e, he, b, hb, rfl⟩ := mem_places.1 hq
    obtain ⟨b', hb', ha, _⟩ := hi.ents e he
    rw [hb] at hb'; injection hb' with hb'; subst hb'
    have := List.find?_eq_none.1 hf e he
    simp at this
    exact this (ha.symm.trans hqa)
  | some e =>
    left
    have he := List.mem_of_find?_eq_some hf
    have ha : e.1 = a := by simpa using List.find?_some hf
    obtain ⟨b, hb, hba, _, hold⟩ := hi.ents e he
    refine ⟨b, by simpa using hb, ?_, ?_⟩
    · exact mem_places.2 ⟨e, he, b, hb, by rw [hba, ha]⟩
    · rw [hold, hba, ha]

/-- One instruction of the dump. -/
theorem dumpInstr_run {E : Disassembler} (hE : E.bytesHex = false) {h : BpHost} (hk : CompleteReplies h.kernel)
    {orig : Nat → Byte} {p : BpSt} (hi : BpInv h orig p) {a n : Nat} {t : Str}
    (hc : Spec.IsInstr E.one orig a n t) (hn : n ≤ E.maxSize)
    (hf : ∀ q ∈ places p, (q.1 = a ∧ q.2 = n) ∨ q.1 + q.2 ≤ a ∨ a + n ≤ q.1) :
    Same p (dumpInstr E h a p).2 ∧
    ((dumpInstr E h a p).1 = .ok (itemInstr orig (a, n, t), decide (∃ q ∈ places p, q.1 = a)) ∨
      ∃ e, (dumpInstr E h a p).1 = .error e) := by
  unfold dumpInstr
  rcases dictGet_place hi a with ⟨b, hb, hpl, hold⟩ | ⟨hb, hno⟩
  · rw [hb]
    simp only []
    have hsz : b.size = n := by
      have hpos : 0 < b.size := by
        obtain ⟨e, he, b', hb', heq⟩ := mem_places.1 hpl
        obtain ⟨b2, hb2, _, hpos, _⟩ := hi.ents e he
        rw [hb'] at hb2; injection hb2 with hb2; subst hb2
        injection heq with _ heq
        omega
      have := hc.1
      rcases hf _ hpl with h1 | h1 | h1 <;> dsimp only at h1 <;> omega
    have hfirst := disassembleFirst_instr hE hc []
    rw [List.append_nil] at hfirst
    rw [hold, hsz, hfirst]
    refine ⟨Same.refl p, Or.inl ?_⟩
    have hd : decide (∃ q ∈ places p, q.1 = a) = true := decide_eq_true ⟨_, hpl, rfl⟩
    rw [hd]
    rfl
  · rw [hb]
    simp only []
    have hs := procDisassembleOne_same E h a p
    cases hr : procDisassembleOne E h a p with
    | mk res p' =>
      rw [hr] at hs
      cases res with
      | error e => rw [Py.run_bind_error hr]; exact ⟨hs, Or.inr ⟨e, rfl⟩⟩
      | ok i =>
        rw [Py.run_bind_ok hr]
        refine ⟨hs, Or.inl ?_⟩
        have hmem : bytesAt p.m.mem a n = bytesAt orig a n := by
          apply bytesAt_congr
          intro j hj
          apply hi.mem.2
          intro q hq
          have := hno q hq
          rcases hf q hq with h1 | h1 | h1 <;> omega
        have := procDisassembleOne_instr hE hk (isInstr_congr hc hmem) hn hr
        rw [this, hmem]
        have hd : decide (∃ q ∈ places p, q.1 = a) = false := decide_eq_false (by
          rintro ⟨q, hq, hqa⟩; exact hno q hq hqa)
        rw [hd]
        rfl

/-- The lines of a listing. -/
def itemLine (mem : Nat → Byte) (ip : Option Nat) (places : List (Nat × Nat)) (x : Spec.CodeItem) : DumpLine :=
  .instr ⟨x.1, x.2.1, x.2.2, Spec.codeAt mem x.1 x.2.1⟩ (decide (some x.1 = ip)) (decide (∃ q ∈ places, q.1 = x.1))

theorem dumpLoop_run {E : Disassembler} (hE : E.bytesHex = false) {h : BpHost} (hk : CompleteReplies h.kernel)
    {orig : Nat → Byte} (stop ip : Option Nat) : ∀ (n a : Nat) (l : List Spec.CodeItem) (s : DumpSt),
    BpInv h orig s.p → Spec.Code E.one orig a l → n ≤ l.length → (∀ x ∈ l, x.2.1 ≤ E.maxSize) →
    Spec.OnInstrs (places s.p) l →
    Same s.p (dumpLoop E h stop ip n a s).2.p ∧
    (((dumpLoop E h stop ip n a s).1 = .ok () ∧
      (dumpLoop E h stop ip n a s).2.out =
        s.out ++ (Spec.shown stop n l).map (itemLine orig ip (places s.p))) ∨
     ∃ e q, (dumpLoop E h stop ip n a s).1 = .error e ∧ q <+: Spec.shown stop n l ∧
      (dumpLoop E h stop ip n a s).2.out = s.out ++ q.map (itemLine orig ip (places s.p))) := by
  intro n
  induction n with
  | zero =>
    intro a l s _ _ _ _ _
    refine ⟨Same.refl _, Or.inl ⟨rfl, ?_⟩⟩
    simp [dumpLoop, Spec.shown, Py.pure]
  | succ n ih =>
    intro a l s hi hc hl hsz hon
    cases l with
    | nil => simp at hl
    | cons x l =>
      obtain ⟨hx, hin, hc'⟩ := hc
      obtain ⟨xa, xn, xt⟩ := x
      simp only at hx hin hc'
      subst hx
      have hrun := dumpInstr_run hE hk hi hin (hsz (xa, xn, xt) (by simp)) (fun q hq => hon q hq (xa, xn, xt) (by simp))
      have hsame := hrun.1
      rcases hrun.2 with hok | ⟨e, herr⟩
      · have hp1 : onProc (dumpInstr E h xa) s = (.ok (itemInstr orig (xa, xn, xt), decide (∃ q ∈ places s.p, q.1 = xa)),
            { s with p := (dumpInstr E h xa s.p).2 }) := by
          unfold onProc
          rw [← hok]
        have hstep : dumpLoop E h stop ip (n + 1) xa s =
            (match stop with
              | some st => if st ≤ xa + xn then (Py.pure () : Py DumpSt Unit) else dumpLoop E h (some st) ip n (xa + xn)
              | none => dumpLoop E h none ip n (xa + xn))
            { p := (dumpInstr E h xa s.p).2, out := s.out ++ [itemLine orig ip (places s.p) (xa, xn, xt)] } := by
          rw [dumpLoop, Py.run_bind_ok hp1]
          cases stop <;> rfl
        have hpl : places (dumpInstr E h xa s.p).2 = places s.p := by unfold places; rw [hsame.dict, hsame.objs]
        have hrec : ∀ st, st = stop → stop.any (fun st => st ≤ xa + xn) = false →
            dumpLoop E h stop ip (n + 1) xa s = dumpLoop E h st ip n (xa + xn)
              { p := (dumpInstr E h xa s.p).2, out := s.out ++ [itemLine orig ip (places s.p) (xa, xn, xt)] } := by
          intro st hst hany
          subst hst
          rw [hstep]
          cases st with
          | none => rfl
          | some st =>
            simp at hany
            simp only []
            rw [if_neg (by omega)]
        by_cases hany : stop.any (fun st => st ≤ xa + xn) = true
        · have hend : dumpLoop E h stop ip (n + 1) xa s = (.ok (),
              { p := (dumpInstr E h xa s.p).2, out := s.out ++ [itemLine orig ip (places s.p) (xa, xn, xt)] }) := by
            rw [hstep]
            cases stop with
            | none => simp at hany
            | some st =>
              simp at hany
              simp only []
              rw [if_pos (by omega)]
              rfl
          rw [hend]
          refine ⟨hsame, Or.inl ⟨rfl, ?_⟩⟩
          simp only [Spec.shown]
          rw [if_pos hany]
          rfl
        · have hany' : stop.any (fun st => st ≤ xa + xn) = false := by simpa using hany
          rw [hrec stop rfl hany']
          have := ih (xa + xn) l { p := (dumpInstr E h xa s.p).2, out := s.out ++ [itemLine orig ip (places s.p) (xa, xn, xt)] }
            (hi.same hsame) hc' (by simpa using hl) (fun y hy => hsz y (by simp [hy]))
            (by dsimp only; rw [hpl]; exact fun q hq y hy => hon q hq y (by simp [hy]))
          dsimp only at this
          rw [hpl] at this
          refine ⟨hsame.trans this.1, ?_⟩
          have hsh : Spec.shown stop (n + 1) ((xa, xn, xt) :: l) = (xa, xn, xt) :: Spec.shown stop n l := by
            simp only [Spec.shown]
            rw [if_neg hany]
          rcases this.2 with ⟨h1, h2⟩ | ⟨e, q, h1, h2, h3⟩
          · refine Or.inl ⟨h1, ?_⟩
            rw [h2, hsh]
            simp
          · refine Or.inr ⟨e, (xa, xn, xt) :: q, h1, ?_, ?_⟩
            · rw [hsh]
              exact List.cons_prefix_cons.2 ⟨rfl, h2⟩
            · rw [h3]
              simp
      · have hp1 : onProc (dumpInstr E h xa) s = (.error e, { s with p := (dumpInstr E h xa s.p).2 }) := by
          unfold onProc
          rw [← herr]
        rw [dumpLoop, Py.run_bind_error hp1]
        exact ⟨hsame, Or.inr ⟨e, [], rfl, List.nil_prefix, by simp⟩⟩

end PT
