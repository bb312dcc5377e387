import Verif.Model.Session
import Verif.Lemmas.Py

/-! Operations that relate every state to the one they leave behind, whether they return or raise. -/

namespace PT

/-- Whatever happens, the final state is related to the first one. -/
def Keeps {σ α : Type} (R : σ → σ → Prop) (m : Py σ α) : Prop := ∀ s, R s (m s).2

/-- A relation that operations one after the other can keep. -/
structure Preorder' {σ : Type} (R : σ → σ → Prop) : Prop where
  refl : ∀ s, R s s
  trans : ∀ {s t u}, R s t → R t u → R s u

/-- The relation for a process with printed lines. -/
def onCon {σ : Type} (R : σ → σ → Prop) (c d : Con σ) : Prop := R c.inner d.inner

theorem onCon_pre {σ : Type} {R : σ → σ → Prop} (h : Preorder' R) : Preorder' (onCon R) := ⟨fun _ => h.refl _, fun h1 h2 => h.trans h1 h2⟩

section
variable {σ α β : Type} {R : σ → σ → Prop} (hR : Preorder' R)
include hR

theorem keeps_pure (a : α) : Keeps R (Py.pure a) := fun s => hR.refl s
theorem keeps_raise (e : Exc) : Keeps R (Py.raise e : Py σ α) := fun s => hR.refl s
theorem keeps_liftE (x : Except Exc α) : Keeps R (liftE x) := fun s => hR.refl s

theorem keeps_bind {m : Py σ α} {f : α → Py σ β} (hm : Keeps R m) (hf : ∀ a, Keeps R (f a)) : Keeps R (Py.bind m f) := by
  intro s
  have := hm s
  unfold Py.bind
  generalize m s = x at this ⊢
  obtain ⟨r, u⟩ := x
  cases r with
  | ok a => exact hR.trans this (hf a u)
  | error e => exact this

theorem keeps_exceptPtrace {m h : Py σ α} (hm : Keeps R m) (hh : Keeps R h) : Keeps R (exceptPtrace m h) := by
  intro s
  have := hm s
  unfold exceptPtrace
  generalize m s = x at this ⊢
  obtain ⟨r, u⟩ := x
  cases r with
  | ok a => exact this
  | error e =>
    dsimp only
    split
    · exact hR.trans this (hh u)
    · exact this

theorem keeps_valueOr {m : Py σ α} {f : α → Py σ Bool} (hm : Keeps R m) (hf : ∀ a, Keeps R (f a)) : Keeps R (valueOr m f) := by
  intro s
  have := hm s
  unfold valueOr
  generalize m s = x at this ⊢
  obtain ⟨r, u⟩ := x
  cases r with
  | ok a => exact hR.trans this (hf a u)
  | error e => cases e <;> exact this

theorem keeps_catchValue {m : Py σ (Option α)} (hm : Keeps R m) : Keeps R (catchValue m) := by
  intro s
  have := hm s
  unfold catchValue
  generalize m s = x at this ⊢
  obtain ⟨r, u⟩ := x
  cases r with
  | ok a => exact this
  | error e => cases e <;> exact this

theorem keeps_silent {m : Py σ Unit} (hm : Keeps R m) : Keeps R (silent m) := keeps_bind hR hm fun _ => keeps_pure hR _

theorem keeps_inside {m : Py σ α} (hm : Keeps R m) : Keeps (onCon R) (inside m) := fun c => hm c.inner

omit hR in
theorem keeps_say (hr : ∀ s, R s s) (t : Str) : Keeps (onCon R) (say (σ := σ) t) := fun c => hr c.inner

theorem keeps_sayAll (l : List Str) : Keeps (onCon R) (sayAll (σ := σ) l) := by
  induction l with
  | nil => exact keeps_pure (onCon_pre hR) _
  | cons t l ih => exact keeps_bind (onCon_pre hR) (keeps_say hR.refl t) fun _ => ih

theorem keeps_reSub (len : Str → Nat) {f : Str → Py σ Str} (hf : ∀ t, Keeps R (f t)) : ∀ fuel t, Keeps R (reSub len f fuel t) := by
  intro fuel
  induction fuel with
  | zero => intro t; exact keeps_pure hR _
  | succ fuel ih =>
    intro t
    cases t with
    | nil => exact keeps_pure hR _
    | cons c cs =>
      unfold reSub
      split
      · exact keeps_bind hR (ih _) fun _ => keeps_pure hR _
      · exact keeps_bind hR (hf _) fun _ => keeps_bind hR (ih _) fun _ => keeps_pure hR _

theorem keeps_parseInteger (a : Arch) (ps : PyStr) (ev : Str → Except EvalErr PyVal) {getreg : Str → Py σ Nat} {readWord : Nat → Py σ Nat}
    (hg : ∀ n, Keeps R (getreg n)) (hw : ∀ x, Keeps R (readWord x)) (text : Str) : Keeps R (parseInteger a ps ev getreg readWord text) := by
  unfold parseInteger
  dsimp only
  split
  · exact keeps_raise hR _
  · refine keeps_bind hR (keeps_reSub hR _ (fun t => keeps_bind hR (hg _) fun _ => keeps_pure hR _) _ _) fun t1 => ?_
    refine keeps_bind hR (keeps_reSub hR _ (fun t => keeps_pure hR _) _ _) fun t2 => ?_
    split
    · exact keeps_raise hR _
    · split
      · exact keeps_raise hR _
      · exact keeps_raise hR _
      · refine keeps_bind hR (keeps_liftE hR _) fun v => ?_
        split
        · exact hw _
        · exact keeps_pure hR _

theorem keeps_hexdumpLoop (a : Arch) {read : Nat → Nat → Py σ Bytes} (hr : ∀ x n, Keeps R (read x n)) (width stop : Nat) :
    ∀ fuel address readError, Keeps R (hexdumpLoop a read width stop fuel address readError) := by
  intro fuel
  induction fuel with
  | zero =>
    intro address e s
    unfold hexdumpLoop
    split <;> exact hR.refl s
  | succ fuel ih =>
    intro address e s
    unfold hexdumpLoop
    dsimp only
    split
    · have h1 := hr address (min (stop - address) width) s
      generalize read address (min (stop - address) width) s = x at h1 ⊢
      obtain ⟨r, u⟩ := x
      cases r with
      | ok b => exact hR.trans h1 (keeps_bind hR (ih _ _) (fun _ => keeps_pure hR _) u)
      | error e =>
        cases e with
        | ptrace n => exact hR.trans h1 (ih _ _ u)
        | _ => exact h1
    · exact hR.refl s

theorem keeps_hexdump (a : Arch) {parse : Str → Py σ Nat} {read : Nat → Nat → Py σ Bytes} (hp : ∀ t, Keeps R (parse t))
    (hr : ∀ x n, Keeps R (read x n)) (terminal : Nat) (command : Str) : Keeps R (hexdump a parse read terminal command) := by
  unfold hexdump
  dsimp only
  split
  · refine keeps_bind hR (keeps_catchValue hR (keeps_bind hR (hp _) fun _ => keeps_bind hR (hp _) fun _ => ?_)) fun r => ?_
    · split
      · exact keeps_raise hR _
      · exact keeps_pure hR _
    · split
      · exact keeps_pure hR _
      · split
        · exact keeps_bind hR (keeps_hexdumpLoop hR a hr _ _ _ _ _) fun _ => keeps_pure hR _
        · exact keeps_bind hR (keeps_hexdumpLoop hR a hr _ _ _ _ _) fun _ => keeps_pure hR _
  · refine keeps_bind hR (keeps_catchValue hR (keeps_bind hR (hp _) fun _ => keeps_pure hR _)) fun r => ?_
    split
    · exact keeps_pure hR _
    · exact keeps_bind hR (keeps_hexdumpLoop hR a hr _ _ _ _ _) fun _ => keeps_pure hR _

theorem keeps_frameArguments (a : Arch) {readWord : Nat → Py σ Nat} (hw : ∀ x, Keeps R (readWord x)) :
    ∀ n address arguments, Keeps R (frameArguments a readWord n address arguments) := by
  intro n
  induction n with
  | zero => intro _ _; exact keeps_pure hR _
  | succ n ih =>
    intro address arguments s
    unfold frameArguments
    have h1 := hw (address + a.W) s
    generalize readWord (address + a.W) s = x at h1 ⊢
    obtain ⟨r, u⟩ := x
    cases r with
    | ok w => exact hR.trans h1 (ih _ _ u)
    | error e => dsimp only; split <;> exact h1

omit hR in
theorem keeps_readNextFp {readWord : Nat → Py σ Nat} (hw : ∀ x, Keeps R (readWord x)) (fp : Nat) : Keeps R (readNextFp readWord fp) := by
  intro s
  unfold readNextFp
  have h1 := hw fp s
  generalize readWord fp s = x at h1 ⊢
  obtain ⟨r, u⟩ := x
  cases r with
  | ok w => exact h1
  | error e => dsimp only; split <;> exact h1

theorem keeps_backtraceLoop (a : Arch) {readWord : Nat → Py σ Nat} (hw : ∀ x, Keeps R (readWord x)) (maxArgs : Int) :
    ∀ rest ip fp frames, Keeps R (backtraceLoop a readWord maxArgs rest ip fp frames) := by
  intro rest
  induction rest with
  | zero => intro _ _ _; exact keeps_pure hR _
  | succ rest ih =>
    intro ip fp frames
    unfold backtraceLoop
    refine keeps_bind hR (keeps_readNextFp hw fp) fun nextfp => ?_
    refine keeps_bind hR (keeps_bind hR (keeps_frameArguments hR a hw _ _ _) fun _ => keeps_pure hR _) fun frame => ?_
    split
    · exact keeps_pure hR _
    · exact keeps_pure hR _
    · refine keeps_bind hR (hw _) fun ip' => ?_
      split
      · exact keeps_pure hR _
      · exact ih _ _ _

theorem keeps_getBacktrace (a : Arch) {gip gfp : Py σ Nat} {readWord : Nat → Py σ Nat} (h1 : Keeps R gip) (h2 : Keeps R gfp)
    (hw : ∀ x, Keeps R (readWord x)) (maxArgs maxDepth : Int) : Keeps R (getBacktrace a gip gfp readWord maxArgs maxDepth) :=
  keeps_bind hR h1 fun _ => keeps_bind hR h2 fun _ => keeps_backtraceLoop hR a hw _ _ _ _ _

theorem keeps_gdbBacktrace (a : Arch) {trace : Py σ Backtrace} (h : Keeps R trace) : Keeps (onCon R) (gdbBacktrace a trace) := by
  refine keeps_bind (onCon_pre hR) (keeps_inside hR h) fun t => ?_
  refine keeps_bind (onCon_pre hR) (keeps_sayAll hR _) fun _ => ?_
  split
  · exact keeps_say hR.refl _
  · exact keeps_pure (onCon_pre hR) _

theorem keeps_stackLoop (a : Arch) {readWord : Int → Py σ Nat} (hw : ∀ x, Keeps R (readWord x)) (sp : Nat) :
    ∀ l displayed, Keeps (onCon R) (stackLoop a readWord sp l displayed) := by
  intro l
  induction l with
  | nil => intro _; exact keeps_pure (onCon_pre hR) _
  | cons index rest ih =>
    intro displayed c
    unfold stackLoop
    have h1 : onCon R c (inside (readWord (sp + index * a.W)) c).2 := keeps_inside hR (hw _) c
    generalize inside (readWord (sp + index * a.W)) c = x at h1 ⊢
    obtain ⟨r, d⟩ := x
    cases r with
    | ok v => exact (onCon_pre hR).trans h1 (keeps_bind (onCon_pre hR) (keeps_say hR.refl _) (fun _ => ih _) d)
    | error e =>
      dsimp only
      split
      · exact (onCon_pre hR).trans h1 (ih _ d)
      · exact h1

theorem keeps_dumpStack (a : Arch) {maps : Py σ (List Mapping)} {gsp : Py σ Nat} {readWord : Int → Py σ Nat} (hm : Keeps R maps) (hs : Keeps R gsp)
    (hw : ∀ x, Keeps R (readWord x)) : Keeps (onCon R) (dumpStack a maps gsp readWord) := by
  refine keeps_bind (onCon_pre hR) (keeps_inside hR hm) fun ms => ?_
  refine keeps_bind (onCon_pre hR) (keeps_sayAll hR _) fun _ => ?_
  refine keeps_bind (onCon_pre hR) (keeps_inside hR hs) fun sp => ?_
  refine keeps_bind (onCon_pre hR) (keeps_stackLoop hR a hw _ _ _) fun n => ?_
  split
  · exact keeps_say hR.refl _
  · exact keeps_pure (onCon_pre hR) _

theorem keeps_dumpMaps (a : Arch) {maps : Py σ (List Mapping)} (hm : Keeps R maps) : Keeps (onCon R) (dumpMaps a maps) :=
  keeps_bind (onCon_pre hR) (keeps_inside hR hm) fun _ => keeps_sayAll hR _

theorem keeps_gdbPrint (a : Arch) {parse : Str → Py σ Nat} {maps : Py σ (List Mapping)} (hp : ∀ t, Keeps R (parse t)) (hm : Keeps R maps) (command : Str) :
    Keeps (onCon R) (gdbPrint a parse maps command) := by
  have hC := onCon_pre hR
  refine keeps_valueOr hC (keeps_inside hR (hp _)) fun v => ?_
  refine keeps_bind hC (keeps_say hR.refl _) fun _ => keeps_bind hC (keeps_say hR.refl _) fun _ => ?_
  exact keeps_bind hC (keeps_inside hR hm) fun _ => keeps_bind hC (keeps_sayAll hR _) fun _ => keeps_pure hC _

theorem keeps_gdbWhere (space : Char → Bool) {parse : Str → Py σ Nat} {dump : Option Nat → Option Nat → Bool → Py σ Unit} (hp : ∀ t, Keeps R (parse t))
    (hd : ∀ x y b, Keeps R (dump x y b)) (command : Str) (bp : Bool) : Keeps R (gdbWhere space parse dump command bp) := by
  refine keeps_valueOr hR ?_ fun vs => keeps_bind hR (hd _ _ _) fun _ => keeps_pure hR _
  unfold parseIntegers
  generalize splitWs space command = l
  induction l with
  | nil => exact keeps_pure hR _
  | cons t l ih => exact keeps_bind hR (hp _) fun _ => keeps_bind hR ih fun _ => keeps_pure hR _

theorem keeps_gdbSet (ps : PyStr) {parse : Str → Py σ Nat} {set : Str → Nat → Py σ Unit} (hp : ∀ t, Keeps R (parse t)) (hs : ∀ n v, Keeps R (set n v))
    (text : Str) : Keeps (onCon R) (gdbSet ps parse set text) := by
  have hC := onCon_pre hR
  unfold gdbSet
  split
  · exact keeps_pure hC _
  · split
    · refine keeps_valueOr hC (keeps_inside hR (hp _)) fun v => ?_
      intro c
      have h1 := keeps_inside hR (hs ‹_› v) c
      dsimp only
      split
      · next heq => rw [heq] at h1; exact hC.trans h1 (keeps_bind hC (keeps_say hR.refl _) (fun _ => keeps_pure hC _) _)
      · next heq => rw [heq] at h1; exact h1
      · next heq => rw [heq] at h1; exact h1
    · exact keeps_pure hC _

theorem keeps_runLine {execute : Str → Py σ Bool} (space : Char → Bool) : ∀ l : List Str, (∀ c ∈ l, Keeps R (execute (strip space c))) →
    Keeps R (runLine execute space l) := by
  intro l
  induction l with
  | nil => intro _; exact keeps_pure hR _
  | cons c l ih =>
    intro h
    refine keeps_bind hR (h c (by simp)) fun ok => ?_
    split
    · exact ih fun c hc => h c (by simp [hc])
    · exact keeps_pure hR _
end

end PT
