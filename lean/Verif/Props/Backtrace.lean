import Verif.Model.Backtrace
import Verif.Model.Memory
import Verif.Spec.Backtrace
import Verif.Lemmas.Py
import Mathlib.Tactic.ByContra

/-! C65: backtraces. -/

namespace PT
open Spec

/-- Reading the stopped process: every word always has the same reading, which fails with `PtraceError` only. -/
structure Stopped {σ : Type} (readWord : Nat → Py σ Nat) (view : Nat → Except Exc Nat) (Inv : σ → Prop) : Prop where
  read : ∀ addr s, Inv s → ∃ s', readWord addr s = (view addr, s') ∧ Inv s'
  errors : ∀ addr e, view addr = .error e → ∃ n, e = .ptrace n

section
variable {σ : Type} {a : Arch} {readWord : Nat → Py σ Nat} {view : Nat → Except Exc Nat} {Inv : σ → Prop}

private theorem W_pos (a : Arch) : 0 < a.W := by unfold Arch.W; split <;> omega

private theorem frameArguments_run (h : Stopped readWord view Inv) : ∀ (n addr : Nat) (acc : List Nat) (s : σ), Inv s →
    ∃ more s', frameArguments a readWord n addr acc s = (.ok (acc ++ more), s') ∧ Inv s' ∧ more.length ≤ n ∧
      (∀ i v, more[i]? = some v → view (addr + (i + 1) * a.W) = .ok v) ∧
      (more.length < n → ∃ e, view (addr + (more.length + 1) * a.W) = .error e) := by
  intro n
  induction n with
  | zero => intro addr acc s hs; exact ⟨[], s, by simp [frameArguments], hs, by simp, (fun i v hv => by simp at hv), (fun h => by simp at h)⟩
  | succ n ih =>
    intro addr acc s hs
    obtain ⟨s1, hr, hs1⟩ := h.read (addr + a.W) s hs
    rw [frameArguments]
    simp only [hr]
    cases hv : view (addr + a.W) with
    | error e =>
      obtain ⟨m, rfl⟩ := h.errors _ _ hv
      simp only [Exc.isPtrace, if_true]
      refine ⟨[], s1, by simp, hs1, by simp, (fun i v hv => by simp at hv), fun _ => ⟨.ptrace m, ?_⟩⟩
      simpa using hv
    | ok w =>
      simp only
      obtain ⟨more, s2, e1, e2, e3, e4, e5⟩ := ih (addr + a.W) (acc ++ [w]) s1 hs1
      refine ⟨w :: more, s2, by rw [e1]; simp, e2, by simp; exact e3, ?_, ?_⟩
      · intro i v hi
        cases i with
        | zero =>
          simp at hi
          subst hi
          simpa using hv
        | succ i =>
          simp at hi
          have := e4 i v hi
          rw [show addr + (i + 1 + 1) * a.W = addr + a.W + (i + 1) * a.W by rw [Nat.add_mul (i + 1) 1]; omega]
          exact this
      · intro hlt
        obtain ⟨e, he⟩ := e5 (by simpa using hlt)
        refine ⟨e, ?_⟩
        rw [List.length_cons, show addr + (more.length + 1 + 1) * a.W = addr + a.W + (more.length + 1) * a.W by
          rw [Nat.add_mul (more.length + 1) 1]; omega]
        exact he

private theorem readNextFp_run (h : Stopped readWord view Inv) (fp : Nat) (s : σ) (hs : Inv s) :
    ∃ s', readNextFp readWord fp s = (.ok (view fp).toOption, s') ∧ Inv s' := by
  obtain ⟨s1, hr, hs1⟩ := h.read fp s hs
  unfold readNextFp
  rw [hr]
  cases hv : view fp with
  | ok n => exact ⟨s1, rfl, hs1⟩
  | error e =>
    obtain ⟨m, rfl⟩ := h.errors _ _ hv
    exact ⟨s1, rfl, hs1⟩

private theorem frame_run (h : Stopped readWord view Inv) (maxArgs : Int) (ip fp : Nat) (s : σ) (hs : Inv s) :
    ∃ args s', getBacktraceFrame a readWord ip fp (guessArgs a maxArgs fp (view fp).toOption) s = (.ok ⟨ip, args⟩, s') ∧ Inv s' ∧
      ArgsOf a.W view maxArgs fp args := by
  have hW := W_pos a
  generalize hn : guessArgs a maxArgs fp (view fp).toOption = nargs
  obtain ⟨args, s1, e1, e2, e3, e4, e5⟩ := frameArguments_run (a := a) h nargs.toNat (fp + a.W) [] s hs
  have haddr : ∀ i, fp + a.W + (i + 1) * a.W = fp + (2 + i) * a.W := by
    intro i
    rw [Nat.add_mul, Nat.add_mul]; omega
  have hguess : ∀ next, fp ≠ 0 → next ≠ 0 → view fp = .ok next → nargs = min (((next : Int) - fp) / a.W - 2) maxArgs := by
    intro next h1 h2 h3
    rw [← hn, h3]
    simp only [Except.toOption, guessArgs]
    rw [if_pos ⟨h1, h2⟩]
  refine ⟨args, s1, ?_, e2, ?_⟩
  · unfold getBacktraceFrame
    rw [Py.run_bind_ok e1]; rfl
  · have hne : args ≠ [] → 0 < nargs := by
      intro hne
      have : 0 < args.length := List.length_pos_iff.2 hne
      omega
    have hpos : 0 < nargs → ∃ next, fp ≠ 0 ∧ next ≠ 0 ∧ view fp = .ok next := by
      intro hp
      cases hv : view fp with
      | error e => rw [hv] at hn; simp only [Except.toOption, guessArgs] at hn; omega
      | ok next =>
        rw [hv] at hn
        simp only [Except.toOption, guessArgs] at hn
        by_cases hc : fp ≠ 0 ∧ next ≠ 0
        · exact ⟨next, hc.1, hc.2, rfl⟩
        · rw [if_neg hc] at hn; omega
    refine ⟨?_, ?_, ?_, ?_⟩
    · intro i v hi
      rw [← haddr i]; exact e4 i v hi
    · intro h0
      obtain ⟨next, h1, h2, h3⟩ := hpos (hne h0)
      have hg := hguess next h1 h2 h3
      have := hne h0
      generalize ((next : Int) - fp) / a.W = q at hg
      clear e5 e4 hpos hguess
      omega
    · intro h0
      obtain ⟨next, h1, h2, h3⟩ := hpos (hne h0)
      have hg := hguess next h1 h2 h3
      refine ⟨next, h3, ?_⟩
      have hlen : (args.length : Int) + 2 ≤ ((next : Int) - fp) / a.W := by
        have := hne h0
        generalize ((next : Int) - fp) / a.W = q at hg ⊢
        clear e5 e4 hpos hguess
        omega
      have := (Int.le_ediv_iff_mul_le (by omega : (0 : Int) < a.W)).1 hlen
      have h4 : ((2 + args.length) * a.W : Nat) = ((args.length : Int) + 2) * (a.W : Int) := by push_cast; rw [Int.add_comm]
      omega
    · intro next h0 hv hle hlt
      have hn0 : next ≠ 0 := by
        intro h
        rw [h] at hle
        omega
      have hg := hguess next h0 hn0 hv
      have hlen : (args.length : Int) + 3 ≤ ((next : Int) - fp) / a.W := by
        rw [Int.le_ediv_iff_mul_le (by omega : (0 : Int) < a.W)]
        have h4 : ((2 + args.length) * a.W + a.W : Nat) = ((args.length : Int) + 3) * (a.W : Int) := by
          push_cast
          rw [Int.add_mul, Int.add_mul]; omega
        omega
      have hlt' : args.length < nargs.toNat := by
        generalize ((next : Int) - fp) / a.W = q at hg hlen
        clear e5 e4 hpos hguess
        omega
      obtain ⟨e, he⟩ := e5 hlt'
      exact ⟨e, by rw [← haddr]; exact he⟩

/-- A return address that cannot be read, at the end of a frame whose saved frame pointer can. -/
def Torn (a : Arch) (view : Nat → Except Exc Nat) (fp : Nat) : Prop :=
  ∃ next e, view fp = .ok next ∧ next ≠ 0 ∧ view (fp + a.W) = .error e

private theorem caller_none_of (ip fp : Nat) (h : ∀ next, view fp = .ok next → next = 0) : caller a.W a.maxUint view (ip, fp) = none := by
  unfold caller
  simp only
  cases hv : view fp with
  | error e => rfl
  | ok next =>
    have := h next hv
    subst this
    cases view (fp + a.W) <;> simp

private theorem frameAt_shift (w m : Nat) (ip fp ip' fp' : Nat) (h : caller w m view (ip, fp) = some (ip', fp')) :
    ∀ i, frameAt w m view ip fp (i + 1) = frameAt w m view ip' fp' i := by
  intro i
  induction i with
  | zero => rw [frameAt, frameAt, frameAt]; simpa using h
  | succ i ih => rw [frameAt, ih]; rfl

private theorem frameAt_stop (w m : Nat) (ip fp : Nat) (h : caller w m view (ip, fp) = none) :
    ∀ i, frameAt w m view ip fp (i + 1) = none := by
  intro i
  induction i with
  | zero => rw [frameAt, frameAt]; simpa using h
  | succ i ih => rw [frameAt, ih]; rfl

/-- What a run of the loop gives from one frame on. -/
private theorem loop_run (h : Stopped readWord view Inv) (maxArgs : Int) : ∀ (rest ip fp : Nat) (acc : List BtFrame) (s : σ), Inv s →
    (∀ i, i < rest → ∀ f, frameAt a.W a.maxUint view ip fp i = some f → ¬ Torn a view f.2) →
    ∃ more trunc s', backtraceLoop a readWord maxArgs rest ip fp acc s = (.ok ⟨acc ++ more, trunc⟩, s') ∧ Inv s' ∧
      (∀ i, more[i]?.map BtFrame.ip = if i < rest then (frameAt a.W a.maxUint view ip fp i).map Prod.fst else none) ∧
      (∀ i fr, more[i]? = some fr → ∃ f, frameAt a.W a.maxUint view ip fp i = some f ∧ ArgsOf a.W view maxArgs f.2 fr.arguments) ∧
      (trunc = true ↔ frameAt a.W a.maxUint view ip fp rest ≠ none) := by
  intro rest
  induction rest with
  | zero =>
    intro ip fp acc s hs _
    refine ⟨[], true, s, by rw [backtraceLoop]; simp, hs, (fun i => by simp), (fun i fr hi => by simp at hi), ?_⟩
    simp [frameAt]
  | succ rest ih =>
    intro ip fp acc s hs hok
    obtain ⟨s1, n1, hs1⟩ := readNextFp_run h fp s hs
    obtain ⟨args, s2, f1, hs2, hargs⟩ := frame_run (a := a) h maxArgs ip fp s1 hs1
    have hrun : backtraceLoop a readWord maxArgs (rest + 1) ip fp acc s =
        (match (view fp).toOption with
        | none => (Py.pure (⟨acc ++ [(⟨ip, args⟩ : BtFrame)], false⟩ : Backtrace) : Py σ Backtrace)
        | some 0 => Py.pure (⟨acc ++ [(⟨ip, args⟩ : BtFrame)], false⟩ : Backtrace)
        | some (next + 1) =>
          Py.bind (readWord (fp + a.W)) fun ip' =>
          if ip' = a.maxUint then Py.pure (⟨acc ++ [(⟨ip, args⟩ : BtFrame)], false⟩ : Backtrace)
          else backtraceLoop a readWord maxArgs rest ip' (next + 1) (acc ++ [(⟨ip, args⟩ : BtFrame)])) s2 := by
      rw [backtraceLoop, Py.run_bind_ok n1, Py.run_bind_ok f1]
      rfl
    -- the last frame
    have hlast : ∀ s3, Inv s3 → caller a.W a.maxUint view (ip, fp) = none →
        ∃ more trunc s', ((.ok ⟨acc ++ [⟨ip, args⟩], false⟩, s3) : Except Exc Backtrace × σ) = (.ok ⟨acc ++ more, trunc⟩, s') ∧ Inv s' ∧
        (∀ i, more[i]?.map BtFrame.ip = if i < rest + 1 then (frameAt a.W a.maxUint view ip fp i).map Prod.fst else none) ∧
        (∀ i fr, more[i]? = some fr → ∃ f, frameAt a.W a.maxUint view ip fp i = some f ∧ ArgsOf a.W view maxArgs f.2 fr.arguments) ∧
        (trunc = true ↔ frameAt a.W a.maxUint view ip fp (rest + 1) ≠ none) := by
      intro s3 hs3 hcall
      have hstop := frameAt_stop a.W a.maxUint ip fp hcall
      refine ⟨[⟨ip, args⟩], false, s3, rfl, hs3, ?_, ?_, ?_⟩
      · intro i
        cases i with
        | zero => simp [frameAt]
        | succ i => simp [hstop i]
      · intro i fr hi
        cases i with
        | zero =>
          simp at hi
          subst hi
          exact ⟨(ip, fp), rfl, hargs⟩
        | succ i => simp at hi
      · simp [hstop rest]
    rw [hrun]
    cases hv : view fp with
    | error e =>
      simp only [Except.toOption]
      exact hlast s2 hs2 (caller_none_of ip fp (by rw [hv]; intro n h; cases h))
    | ok next =>
      cases next with
      | zero =>
        simp only [Except.toOption]
        exact hlast s2 hs2 (caller_none_of ip fp (by rw [hv]; intro n h; injection h with h; exact h.symm))
      | succ next =>
        simp only [Except.toOption]
        obtain ⟨s3, r3, hs3⟩ := h.read (fp + a.W) s2 hs2
        cases hv2 : view (fp + a.W) with
        | error e => exact absurd ⟨next + 1, e, hv, by omega, hv2⟩ (hok 0 (by omega) (ip, fp) rfl)
        | ok ip' =>
          rw [hv2] at r3
          rw [Py.run_bind_ok r3]
          by_cases hmax : ip' = a.maxUint
          · rw [if_pos hmax]
            exact hlast s3 hs3 (by unfold caller; simp only [hv, hv2, hmax]; simp)
          · rw [if_neg hmax]
            have hcall : caller a.W a.maxUint view (ip, fp) = some (ip', next + 1) := by
              unfold caller
              simp only [hv, hv2]
              rw [if_pos ⟨by omega, hmax⟩]
            have hsh := frameAt_shift a.W a.maxUint ip fp ip' (next + 1) hcall
            obtain ⟨more, trunc, s4, e1, e2, e3, e4, e5⟩ := ih ip' (next + 1) (acc ++ [⟨ip, args⟩]) s3 hs3
              (fun i hi f hf => hok (i + 1) (by omega) f (by rw [hsh i]; exact hf))
            refine ⟨⟨ip, args⟩ :: more, trunc, s4, by rw [e1]; simp, e2, ?_, ?_, ?_⟩
            · intro i
              cases i with
              | zero => simp [frameAt]
              | succ i => rw [hsh i]; simpa using e3 i
            · intro i fr hi
              cases i with
              | zero =>
                simp at hi
                subst hi
                exact ⟨(ip, fp), rfl, hargs⟩
              | succ i =>
                simp at hi
                obtain ⟨f, hf, ha⟩ := e4 i fr hi
                exact ⟨f, by rw [hsh i]; exact hf, ha⟩
            · rw [hsh rest]; exact e5

/-- A torn frame within the depth ends the loop with the error of its return address. -/
private theorem loop_torn (h : Stopped readWord view Inv) (maxArgs : Int) : ∀ (i rest ip fp : Nat) (acc : List BtFrame) (s : σ), Inv s → i < rest →
    ∀ f next e, frameAt a.W a.maxUint view ip fp i = some f → view f.2 = .ok next → next ≠ 0 → view (f.2 + a.W) = .error e →
    ∃ s', backtraceLoop a readWord maxArgs rest ip fp acc s = (.error e, s') := by
  intro i
  induction i with
  | zero =>
    intro rest ip fp acc s hs hi f next e hf hn hn0 he
    obtain ⟨rest, rfl⟩ : ∃ r, rest = r + 1 := ⟨rest - 1, by omega⟩
    rw [frameAt] at hf
    injection hf with hf
    subst hf
    simp only at hn he
    obtain ⟨next, rfl⟩ : ∃ n, next = n + 1 := ⟨next - 1, by omega⟩
    obtain ⟨s1, n1, hs1⟩ := readNextFp_run h fp s hs
    obtain ⟨args, s2, f1, hs2, _⟩ := frame_run (a := a) h maxArgs ip fp s1 hs1
    obtain ⟨s3, r3, _⟩ := h.read (fp + a.W) s2 hs2
    rw [he] at r3
    rw [backtraceLoop, Py.run_bind_ok n1, Py.run_bind_ok f1, hn]
    simp only [Except.toOption]
    rw [Py.run_bind_error r3]
    exact ⟨_, rfl⟩
  | succ i ih =>
    intro rest ip fp acc s hs hi f next e hf hn hn0 he
    obtain ⟨rest, rfl⟩ : ∃ r, rest = r + 1 := ⟨rest - 1, by omega⟩
    cases hc : caller a.W a.maxUint view (ip, fp) with
    | none => rw [frameAt_stop a.W a.maxUint ip fp hc i] at hf; cases hf
    | some g =>
      obtain ⟨ip', fp'⟩ := g
      rw [frameAt_shift a.W a.maxUint ip fp ip' fp' hc i] at hf
      unfold caller at hc
      simp only at hc
      cases hv : view fp with
      | error x => rw [hv] at hc; cases hc
      | ok nx =>
        cases hv2 : view (fp + a.W) with
        | error x => rw [hv, hv2] at hc; cases hc
        | ok ipx =>
          rw [hv, hv2] at hc
          simp only at hc
          by_cases hx : nx ≠ 0 ∧ ipx ≠ a.maxUint
          · rw [if_pos hx] at hc
            injection hc with hc
            injection hc with h1 h2
            subst h1; subst h2
            obtain ⟨nx, rfl⟩ : ∃ n, nx = n + 1 := ⟨nx - 1, by omega⟩
            obtain ⟨s1, n1, hs1⟩ := readNextFp_run h fp s hs
            obtain ⟨args, s2, f1, hs2, _⟩ := frame_run (a := a) h maxArgs ip fp s1 hs1
            obtain ⟨s3, r3, hs3⟩ := h.read (fp + a.W) s2 hs2
            rw [hv2] at r3
            rw [backtraceLoop, Py.run_bind_ok n1, Py.run_bind_ok f1, hv]
            simp only [Except.toOption]
            rw [Py.run_bind_ok r3, if_neg hx.2]
            exact ih rest ipx (nx + 1) _ s3 hs3 (by omega) f next e hf hn hn0 he
          · rw [if_neg hx] at hc; cases hc

end

/-- Cyclic or not, whatever the stack contains: when no frame within `max_depth` is torn, the frames are the first `max_depth` of the chain, in
order, with their arguments, and the backtrace is truncated exactly when the chain goes on. -/
theorem C65_partial {σ : Type} (a : Arch) (getIp getFp : Py σ Nat) (readWord : Nat → Py σ Nat) (view : Nat → Except Exc Nat) (Inv : σ → Prop)
    (h : Stopped readWord view Inv) (maxArgs maxDepth : Int) (s s1 s2 : σ) (ip fp : Nat) (hip : getIp s = (.ok ip, s1))
    (hfp : getFp s1 = (.ok fp, s2)) (hs : Inv s2)
    (hok : ∀ i : Nat, (i : Int) < maxDepth → ∀ f, frameAt a.W a.maxUint view ip fp i = some f → ¬ Torn a view f.2) :
    ∃ bt s', getBacktrace a getIp getFp readWord maxArgs maxDepth s = (.ok bt, s') ∧
      (∀ i : Nat, bt.frames[i]?.map BtFrame.ip = if (i : Int) < maxDepth then (frameAt a.W a.maxUint view ip fp i).map Prod.fst else none) ∧
      (∀ (i : Nat) (fr : BtFrame), bt.frames[i]? = some fr →
        ∃ f, frameAt a.W a.maxUint view ip fp i = some f ∧ ArgsOf a.W view maxArgs f.2 fr.arguments) ∧
      (bt.truncated = true ↔ frameAt a.W a.maxUint view ip fp maxDepth.toNat ≠ none) := by
  obtain ⟨more, trunc, s', e1, _, e3, e4, e5⟩ := loop_run (a := a) h maxArgs maxDepth.toNat ip fp [] s2 hs
    (fun i hi => hok i (by omega))
  refine ⟨⟨more, trunc⟩, s', ?_, ?_, e4, e5⟩
  · unfold getBacktrace
    rw [Py.run_bind_ok hip, Py.run_bind_ok hfp, e1]; rfl
  · intro i
    have := e3 i
    by_cases hi : (i : Int) < maxDepth
    · rw [if_pos hi]; rw [if_pos (by omega)] at this; exact this
    · rw [if_neg hi]; rw [if_neg (by omega)] at this; exact this

/-- Exactly the torn frames lose the backtrace: it is returned if and only if no frame within `max_depth` is torn, and otherwise the error
is the one of reading the return address of the torn frame. -/
theorem C65_lost {σ : Type} (a : Arch) (getIp getFp : Py σ Nat) (readWord : Nat → Py σ Nat) (view : Nat → Except Exc Nat) (Inv : σ → Prop)
    (h : Stopped readWord view Inv) (maxArgs maxDepth : Int) (s s1 s2 : σ) (ip fp : Nat) (hip : getIp s = (.ok ip, s1))
    (hfp : getFp s1 = (.ok fp, s2)) (hs : Inv s2) :
    ((∃ bt, (getBacktrace a getIp getFp readWord maxArgs maxDepth s).1 = .ok bt) ↔
      ∀ i : Nat, (i : Int) < maxDepth → ∀ f, frameAt a.W a.maxUint view ip fp i = some f → ¬ Torn a view f.2) ∧
    ∀ e, (getBacktrace a getIp getFp readWord maxArgs maxDepth s).1 = .error e ↔
      ∃ (i : Nat) (f : Nat × Nat) (next : Nat), (i : Int) < maxDepth ∧ frameAt a.W a.maxUint view ip fp i = some f ∧ view f.2 = .ok next ∧
        next ≠ 0 ∧ view (f.2 + a.W) = .error e := by
  have hrun : getBacktrace a getIp getFp readWord maxArgs maxDepth s = backtraceLoop a readWord maxArgs maxDepth.toNat ip fp [] s2 := by
    unfold getBacktrace
    rw [Py.run_bind_ok hip, Py.run_bind_ok hfp]
  have htorn : ∀ e, (∃ (i : Nat) (f : Nat × Nat) (next : Nat), (i : Int) < maxDepth ∧ frameAt a.W a.maxUint view ip fp i = some f ∧ view f.2 = .ok next ∧
        next ≠ 0 ∧ view (f.2 + a.W) = .error e) → (getBacktrace a getIp getFp readWord maxArgs maxDepth s).1 = .error e := by
    rintro e ⟨i, f, next, hi, hf, hn, hn0, he⟩
    obtain ⟨s', hl⟩ := loop_torn h maxArgs i maxDepth.toNat ip fp [] s2 hs (by omega) f next e hf hn hn0 he
    rw [hrun, hl]
  refine ⟨⟨?_, fun hok => ?_⟩, fun e => ⟨fun he => ?_, htorn e⟩⟩
  · rintro ⟨bt, hbt⟩ i hi f hf ⟨next, e, h1, h2, h3⟩
    rw [htorn e ⟨i, f, next, hi, hf, h1, h2, h3⟩] at hbt
    cases hbt
  · obtain ⟨bt, s', hb, _⟩ := C65_partial a getIp getFp readWord view Inv h maxArgs maxDepth s s1 s2 ip fp hip hfp hs hok
    exact ⟨bt, by rw [hb]⟩
  · by_contra hno
    obtain ⟨bt, s', hb, _⟩ := C65_partial a getIp getFp readWord view Inv h maxArgs maxDepth s s1 s2 ip fp hip hfp hs (by
      rintro i hi f hf ⟨next, e', h1, h2, h3⟩
      have := htorn e' ⟨i, f, next, hi, hf, h1, h2, h3⟩
      rw [he] at this
      injection this with this
      subst this
      exact hno ⟨i, f, next, hi, hf, h1, h2, h3⟩)
    rw [hb] at he
    cases he

/-- At most `max_depth` frames, and at most `max_args` arguments in each, for every stack, every reader, and without any assumption about the
readings. -/
theorem C65_bounded {σ : Type} (a : Arch) (getIp getFp : Py σ Nat) (readWord : Nat → Py σ Nat) (maxArgs maxDepth : Int) (s s' : σ)
    (bt : Backtrace) (h : getBacktrace a getIp getFp readWord maxArgs maxDepth s = (.ok bt, s')) :
    bt.frames.length ≤ maxDepth.toNat ∧ ∀ fr ∈ bt.frames, fr.arguments.length ≤ maxArgs.toNat := by
  have hargs : ∀ (n addr : Nat) (acc : List Nat) (s s' : σ) (r : List Nat), frameArguments a readWord n addr acc s = (.ok r, s') →
      r.length ≤ acc.length + n := by
    intro n
    induction n with
    | zero => intro addr acc s s' r h; rw [frameArguments] at h; injection h with h _; injection h with h; subst h; omega
    | succ n ih =>
      intro addr acc s s' r h
      rw [frameArguments] at h
      simp only at h
      generalize readWord (addr + a.W) s = x at h
      obtain ⟨v, t⟩ := x
      cases v with
      | ok w =>
        have := ih _ _ _ _ _ h
        rw [List.length_append] at this
        simp at this
        omega
      | error e =>
        simp only at h
        by_cases he : e.isPtrace = true
        · rw [if_pos he] at h; injection h with h _; injection h with h; subst h; omega
        · rw [if_neg he] at h; injection h with h _; cases h
  have hguess : ∀ fp next, (guessArgs a maxArgs fp next).toNat ≤ maxArgs.toNat := by
    intro fp next
    unfold guessArgs
    cases next with
    | none => simp
    | some n =>
      simp only
      by_cases hc : fp ≠ 0 ∧ n ≠ 0
      · rw [if_pos hc]; omega
      · rw [if_neg hc]; simp
  have hloop : ∀ (rest ip fp : Nat) (acc : List BtFrame) (s s' : σ) (bt : Backtrace),
      backtraceLoop a readWord maxArgs rest ip fp acc s = (.ok bt, s') → (∀ fr ∈ acc, fr.arguments.length ≤ maxArgs.toNat) →
      bt.frames.length ≤ acc.length + rest ∧ ∀ fr ∈ bt.frames, fr.arguments.length ≤ maxArgs.toNat := by
    intro rest
    induction rest with
    | zero =>
      intro ip fp acc s s' bt h hacc
      rw [backtraceLoop] at h
      injection h with h _
      injection h with h
      subst h
      exact ⟨by simp, hacc⟩
    | succ rest ih =>
      intro ip fp acc s s' bt h hacc
      rw [backtraceLoop] at h
      obtain ⟨next, u, _, h⟩ := Py.ok_of_bind h
      obtain ⟨frame, u', hf, h⟩ := Py.ok_of_bind h
      unfold getBacktraceFrame at hf
      obtain ⟨args, u2, hf1, hf2⟩ := Py.ok_of_bind hf
      injection hf2 with hf2 _
      injection hf2 with hf2
      have hlen : frame.arguments.length ≤ maxArgs.toNat := by
        rw [← hf2]
        have := hargs _ _ _ _ _ _ hf1
        have := hguess fp next
        simp at *
        omega
      have hacc' : ∀ fr ∈ acc ++ [frame], fr.arguments.length ≤ maxArgs.toNat := by
        intro fr hfr
        rcases List.mem_append.1 hfr with hfr | hfr
        · exact hacc fr hfr
        · rw [List.mem_singleton.1 hfr]; exact hlen
      have hend : ∀ t t', (Py.pure (⟨acc ++ [frame], false⟩ : Backtrace) : Py σ Backtrace) t = (.ok bt, t') →
          bt.frames.length ≤ acc.length + (rest + 1) ∧ ∀ fr ∈ bt.frames, fr.arguments.length ≤ maxArgs.toNat := by
        intro t t' ht
        injection ht with ht _
        injection ht with ht
        subst ht
        exact ⟨by simp, hacc'⟩
      match next with
      | none => exact hend _ _ h
      | some 0 => exact hend _ _ h
      | some (n + 1) =>
        obtain ⟨ip', u3, _, h⟩ := Py.ok_of_bind h
        by_cases hm : ip' = a.maxUint
        · rw [if_pos hm] at h; exact hend _ _ h
        · rw [if_neg hm] at h
          have := ih _ _ _ _ _ _ h hacc'
          rw [List.length_append, List.length_singleton] at this
          exact ⟨by omega, this.2⟩
  unfold getBacktrace at h
  obtain ⟨ip, u, _, h⟩ := Py.ok_of_bind h
  obtain ⟨fp, u', _, h⟩ := Py.ok_of_bind h
  have := hloop _ _ _ _ _ _ _ h (fun fr hfr => by cases hfr)
  exact ⟨by simpa using this.1, this.2⟩

/-- A stack that is readable below 4096 and contains `words`. -/
def stackView (words : List (Nat × Nat)) : Nat → Except Exc Nat := fun addr =>
  if 4096 ≤ addr then .error (.ptrace (some 5)) else .ok ((words.lookup addr).getD 0)

/-- Reading that stack. -/
def stackRead (words : List (Nat × Nat)) : Nat → Py Unit Nat := fun addr s => (stackView words addr, s)

theorem stack_stopped (words : List (Nat × Nat)) : Stopped (stackRead words) (stackView words) fun _ => True where
  read := fun addr s _ => ⟨s, rfl, trivial⟩
  errors := by
    intro addr e h
    unfold stackView at h
    by_cases hc : 4096 ≤ addr
    · rw [if_pos hc] at h; injection h with h; exact ⟨some 5, h.symm⟩
    · rw [if_neg hc] at h; cases h

/-- A torn frame: the saved frame pointer is the last word of the stack. The whole backtrace is lost, with the error of reading the return
address, though the frame itself had been read. -/
theorem C65_refuted : ∃ (view : Nat → Except Exc Nat) (readWord : Nat → Py Unit Nat), Stopped readWord view (fun _ => True) ∧
    frameAt 8 0xffffffffffffffff view 100 4088 0 = some (100, 4088) ∧ frameAt 8 0xffffffffffffffff view 100 4088 1 = none ∧
    getBacktrace ⟨true, false⟩ (Py.pure 100) (Py.pure 4088) readWord 6 20 () = (.error (.ptrace (some 5)), ()) :=
  ⟨stackView [(4088, 8000)], stackRead [(4088, 8000)], stack_stopped _, rfl, by decide +kernel, by decide +kernel⟩

/-- A cycle of two frames: cut after `max_depth`. -/
example : (getBacktrace ⟨true, false⟩ (Py.pure 100) (Py.pure 1000) (stackRead [(1000, 2000), (1008, 111), (2000, 1000), (2008, 222)]) 6 4 ()).1 =
    .ok ⟨[⟨100, [0, 0, 0, 0, 0, 0]⟩, ⟨111, []⟩, ⟨222, [0, 0, 0, 0, 0, 0]⟩, ⟨111, []⟩], true⟩ := by decide +kernel

/-- A frame with one argument, called from a frame that ends the chain. -/
def chainDemo : List (Nat × Nat) := [(1000, 1024), (1008, 555), (1016, 7), (1024, 0)]

theorem chainDemo_frames (i : Nat) (f : Nat × Nat) (hf : frameAt 8 0xffffffffffffffff (stackView chainDemo) 100 1000 i = some f) :
    f = (100, 1000) ∨ f = (555, 1024) := by
  have h1 : frameAt 8 0xffffffffffffffff (stackView chainDemo) 100 1000 1 = some (555, 1024) := by decide +kernel
  have h2 : frameAt 8 0xffffffffffffffff (stackView chainDemo) 100 1000 2 = none := by decide +kernel
  have h3 : ∀ n, frameAt 8 0xffffffffffffffff (stackView chainDemo) 100 1000 (n + 2) = none := by
    intro n
    induction n with
    | zero => exact h2
    | succ n ih => rw [frameAt, ih]; rfl
  cases i with
  | zero =>
    rw [frameAt] at hf
    injection hf with hf
    exact Or.inl hf.symm
  | succ i =>
    cases i with
    | zero =>
      rw [h1] at hf
      injection hf with hf
      exact Or.inr hf.symm
    | succ i => rw [h3 i] at hf; cases hf

theorem chainDemo_torn (fp : Nat) (h : fp = 1000 ∨ fp = 1024) : ¬ Torn ⟨true, false⟩ (stackView chainDemo) fp := by
  have h1 : stackView chainDemo (1000 + Arch.W ⟨true, false⟩) = .ok 555 := by decide +kernel
  have h2 : stackView chainDemo 1024 = .ok 0 := by decide +kernel
  rintro ⟨next, e, h3, h4, h5⟩
  rcases h with rfl | rfl
  · rw [h1] at h5; cases h5
  · rw [h2] at h3
    injection h3 with h3
    exact h4 h3.symm

example := C65_partial ⟨true, false⟩ (Py.pure 100) (Py.pure 1000) (stackRead chainDemo) (stackView chainDemo) _ (stack_stopped chainDemo) 6 20 ()
  () () 100 1000 rfl rfl trivial (fun i _ f hf => chainDemo_torn f.2 ((chainDemo_frames i f hf).imp (congrArg Prod.snd) (congrArg Prod.snd)))

example := C65_lost ⟨true, false⟩ (Py.pure 100) (Py.pure 4088) (stackRead [(4088, 8)]) (stackView [(4088, 8)]) _ (stack_stopped [(4088, 8)]) 6 20 ()
  () () 100 4088 rfl rfl trivial

example := C65_bounded ⟨true, false⟩ (Py.pure 100) (Py.pure 1000) (stackRead chainDemo) 6 20 () ()
  ⟨[⟨100, [7]⟩, ⟨555, []⟩], false⟩ (by decide +kernel)

example : getBacktrace ⟨true, false⟩ (Py.pure 100) (Py.pure 1000) (stackRead chainDemo) 6 20 () =
    (.ok ⟨[⟨100, [7]⟩, ⟨555, []⟩], false⟩, ()) ∧
    ∀ i : Nat, (i : Int) < 20 → ∀ f, frameAt 8 0xffffffffffffffff (stackView chainDemo) 100 1000 i = some f →
      ¬ Torn ⟨true, false⟩ (stackView chainDemo) f.2 := by
  refine ⟨by decide +kernel, fun i _ f hf => chainDemo_torn f.2 ?_⟩
  rcases chainDemo_frames i f hf with rfl | rfl
  · exact Or.inl rfl
  · exact Or.inr rfl

/-- `readWord` of the process is such a reader, while the process is stopped and the kernel decides by address which words can be read. -/
theorem readWord_stopped (k : Kernel) (errs : Nat → Nat) (hk : ∀ log addr, k.peekErr log addr = errs addr) (mem : Nat → Byte) :
    Stopped (readWord k)
      (fun addr => if addr % k.arch.W ≠ 0 then .error (.ptrace none)
        else checkPeek k.arch (if errs addr ≠ 0 then k.arch.maxUint else readNativeUint k.arch (bytesAt mem addr k.arch.W)) (errs addr))
      (fun s => s.mem = mem) where
  read := by
    intro addr s hs
    unfold readWord
    by_cases h : addr % k.arch.W ≠ 0
    · rw [if_pos h, if_pos h]; exact ⟨s, rfl, hs⟩
    · rw [if_neg h, if_neg h, hs, hk]; exact ⟨_, rfl, rfl⟩
  errors := by
    intro addr e h
    by_cases hu : addr % k.arch.W ≠ 0
    · rw [if_pos hu] at h; injection h with h; exact ⟨none, h.symm⟩
    · rw [if_neg hu] at h
      unfold checkPeek at h
      generalize (if errs addr ≠ 0 then k.arch.maxUint else readNativeUint k.arch (bytesAt mem addr k.arch.W)) = r at h
      by_cases h1 : ulong2long k.arch r = -1
      · rw [if_pos h1] at h
        by_cases h2 : errs addr ≠ 0
        · rw [if_pos h2] at h; injection h with h; exact ⟨some (errs addr), h.symm⟩
        · rw [if_neg h2] at h; cases h
      · rw [if_neg h1] at h; cases h

end PT
