import Verif.Lemmas.Minds2
import Verif.Props.Printed
import Verif.Props.GdbProgram

/-! C143: no other process is touched. -/

namespace PT
open Spec

variable {K : Kern} {A : Nat → Prop} {R U : Prop}

/-- A debugger that has seen nothing yet. -/
theorem known_empty {s : DSt} (hl : s.log = []) (hn : s.next = 0) (hd : s.dict = []) (hs : s.list = []) : Minded A R U s := by
  refine ⟨fun before e after h => ?_, fun o ho => ?_, .inr fun o ho => ?_, fun p o hm => ?_, fun o ho => ?_⟩
  · rw [hl] at h
    have := congrArg List.length h
    simp at this
  · omega
  · omega
  · rw [hd] at hm; cases hm
  · rw [hs] at ho; cases ho

theorem setup_known (o : TraceOptions) {lines : List Str} {s : DSt} (h : setupDebugger true o newDebugger = (none, lines, s)) : Minded A R U s := by
  obtain ⟨a, b, c⟩ := o
  cases a <;> cases b <;> cases c <;> (injection h with _ h; injection h with _ h; rw [← h]; exact known_empty rfl rfl rfl rfl)

/-- **C143** Whatever the methods of a debugger are used for, whatever the kernel replies, and whatever exceptions are raised: each call that is made is
about a process whose number the user gave to a method, or that the kernel told of, before, as the child of such a process. PTRACE_ATTACH is used only for
numbers given by the user, unless the user calls `attach` of a process. -/
theorem C143_library (fuel : Nat) (ops : List Op) :
    Minds (fun p => ∃ op ∈ ops, UserNames p op) (∃ o, Op.attach o ∈ ops) (runOps K fuel ops newDebugger).log := by
  have key : ∀ (todo : List Op) (s : DSt), (∀ op ∈ todo, op ∈ ops) → Minded (fun p => ∃ op ∈ ops, UserNames p op) (∃ o, Op.attach o ∈ ops) True s →
      Minded (fun p => ∃ op ∈ ops, UserNames p op) (∃ o, Op.attach o ∈ ops) True (runOps K fuel todo s) := by
    intro todo
    induction todo with
    | nil => exact fun _ _ h => h
    | cons op todo ih =>
      intro s hm h
      have hop := hm op List.mem_cons_self
      exact ih _ (fun x hx => hm x (List.mem_cons_of_mem _ hx)) (tame_runOp fuel op h (fun p hp => ⟨op, hop, hp⟩) (fun o ho => ⟨o, ho ▸ hop⟩) trivial).inv
  exact (key ops newDebugger (fun _ h => h) (known_empty rfl rfl rfl rfl)).log

/-- **C143** strace.py, whatever the kernel replies: each call that is made is about the process it was started for or about a process that the kernel told of
before as a new process made by one of these; and only the process named on the command line is attached. -/
theorem C143_strace (E : ProgramEnv) (fuel : Nat) (args : List Str) {file : Option Str} {r : Except Exc (Option Nat)} {t : Con DSt}
    (h : straceProgram E K fuel args = .ran file r t) : ∃ v program, straceParse E.cmd args = .ok v program ∧
      ∀ root, (∀ n, tracedBy v program = .attach n → root = n.toNat) → (∀ p, tracedBy v program = .start p → root = E.child p) →
        Minds (fun p => p = root) False t.inner.log := by
  unfold straceProgram at h
  split at h
  · cases h
  · rename_i v program hv
    refine ⟨v, program, hv, fun root h1 h2 => ?_⟩
    split at h
    · cases h
    · rename_i lines s hs
      have hk : Minded (fun p => p = root) False False s := setup_known _ hs
      have key : ∀ (b : Bool) (F : LineView), Minds (fun p => p = root) False
          (straceMainOut K fuel (cfgBy E v) F (textsBy E program) root b ⟨s, lines⟩).2.inner.log := fun b F => by
        rw [(C130_same K fuel (cfgBy E v) F (textsBy E program) root b ⟨s, lines⟩).2]
        exact (tame_straceMain (K := K) not_false fuel hk (cfgBy E v) root rfl b).inv.log
      dsimp only at h
      cases hb : tracedBy v program with
      | attach n =>
        rw [hb] at h
        cases h
        dsimp only
        rw [← h1 n hb]
        exact key false _
      | start p =>
        rw [hb] at h
        cases h
        dsimp only
        rw [← h2 p hb]
        exact key true _

theorem permits_typed {G : GdbCfg} {inputs : List Input} (hA : ∀ text p, Input.line text ∈ inputs → AttachTyped G text p → A p) :
    ∀ x ∈ inputs, PermitsInput A G x := by
  intro x hx
  cases x with
  | line text =>
    intro c hc arg ha s p hp
    exact hA text p hx ⟨c, hc, arg, ha, s, hp⟩
  | eof => trivial
  | interrupt => trivial

/-- **C143** gdb.py, whatever the kernel replies and whatever is typed: each call that is made is about the process it was started for, about one the user
asked for with the command `attach`, or about a process that the kernel told of before as a new process made by one of these; and only processes the user
asked for are attached. -/
theorem C143_gdb (E : ProgramEnv) (fuel : Nat) (G : GdbCfg) (hG : NoEvent G) (args : List Str) (inputs : List Input)
    {r : Except Exc (Option (List Input))} {t : DSt} (h : gdbProgram E K fuel G args inputs = .ran r t) : ∃ v program, gdbParse E.cmd args = .ok v program ∧
      ∀ root, (∀ n, tracedBy v program = .attach n → root = n.toNat) → (∀ p, tracedBy v program = .start p → root = E.child p) →
        Minds (fun p => p = root ∨ ∃ text, Input.line text ∈ inputs ∧ AttachTyped G text p) False t.log := by
  unfold gdbProgram at h
  split at h
  · cases h
  · rename_i v program hv
    refine ⟨v, program, hv, fun root h1 h2 => ?_⟩
    split at h
    · cases h
    · rename_i lines s hs
      have key : ∀ b : Bool, Minds (fun p => p = root ∨ ∃ text, Input.line text ∈ inputs ∧ AttachTyped G text p) False
          (gdbMain K fuel G root b inputs s).2.log := fun b =>
        (gdbMain_known (K := K) (U := False) hG fuel root (.inl rfl) b inputs (permits_typed fun text p hm ht => .inr ⟨text, hm, ht⟩) s (setup_known _ hs)).log
      dsimp only at h
      cases hb : tracedBy v program with
      | attach n =>
        rw [hb] at h
        cases h
        dsimp only
        rw [← h1 n hb]
        exact key false
      | start p =>
        rw [hb] at h
        cases h
        dsimp only
        rw [← h2 p hb]
        exact key true

/-! ### what this says -/

theorem promptCfg_plain : NoEvent promptCfg := by
  intro s text ev h
  unfold promptCfg at h
  dsimp only at h
  split at h
  · cases h
  · split at h <;> cases h

/-- A request for a process nobody spoke of is a violation, and so is waiting for any child. -/
example : ¬ Minds (fun p => p = 7) False [⟨.kill 0 8 9, .ok 0 0, []⟩] := fun h => by
  rcases h [] _ [] rfl 8 rfl with h | ⟨_, e, he, _⟩
  · exact absurd h (by decide)
  · cases he

example : ¬ Minds (fun p => p = 7) False [⟨.waitpid none false false, .ok 0 0, []⟩] := fun h => by
  rcases h [] _ [] rfl 0 rfl with h | ⟨_, e, he, _⟩
  · exact absurd h (by decide)
  · cases he

/-- It does not help that the kernel tells of the process later, and a process the kernel told of must not be attached. -/
example : ¬ Minds (fun p => p = 7) False [⟨.cont 1 9 0, .ok 0 0, []⟩, ⟨.geteventmsg 0 7, .ok 9 0, []⟩] := fun h => by
  rcases h [] _ _ rfl 9 rfl with h | ⟨_, e, he, _⟩
  · exact absurd h (by decide)
  · cases he

example : ¬ Minds (fun p => p = 7) False [⟨.geteventmsg 0 7, .ok 9 0, []⟩, ⟨.attach 1 9, .ok 0 0, []⟩] := fun h => by
  rcases h [_] _ [] rfl 9 rfl with h | ⟨h, _⟩
  · exact absurd h (by decide)
  · exact h rfl

/-- What is typed on a line. -/
example : AttachTyped promptCfg " cont; attach 0x400".toList 1024 ∧ ¬ AttachTyped promptCfg " cont; attached 0x400".toList 1024 := by
  refine ⟨⟨" attach 0x400".toList, by decide +kernel, "0x400".toList, by decide +kernel, newDebugger, rfl⟩, ?_⟩
  rintro ⟨c, hc, arg, ha, -⟩
  have hs : splitOn ';' (strip promptCfg.space " cont; attached 0x400".toList) = ["cont".toList, " attached 0x400".toList] := by decide +kernel
  rw [hs] at hc
  have key : ∀ c ∈ ["cont".toList, " attached 0x400".toList], "attach ".toList.isPrefixOf (strip promptCfg.space c) = false := by decide +kernel
  have h1 := key c hc
  rw [ha] at h1
  rw [List.isPrefixOf_iff_prefix.2 (List.prefix_append _ _)] at h1
  cases h1

/-- The program of `C142_children_refuted`: process 9 is waited for, continued and killed, and this is allowed only because the kernel told of it as the child
of process 7, which the user named. -/
example : (∀ r t, gdbProgram programEnv breeding 9 promptCfg ["--fork".toList, "-p".toList, "7".toList] [.line "cont".toList, .eof] = .ran r t →
      Minds (fun p => p = 7 ∨ ∃ text, Input.line text ∈ [.line "cont".toList, .eof] ∧ AttachTyped promptCfg text p) False t.log) ∧
    (match gdbProgram programEnv breeding 9 promptCfg ["--fork".toList, "-p".toList, "7".toList] [.line "cont".toList, .eof] with
      | .ran _ t => (t.log.map fun e => (named e.call, born e)).drop 5
      | .early _ => []) =
      [(some 7, some 9), (some 9, none), (some 9, none), (some 9, none), (some 9, none), (some 7, none)] := by
  refine ⟨fun r t h => ?_, by decide +kernel⟩
  obtain ⟨v, program, hv, hm⟩ := C143_gdb programEnv 9 promptCfg promptCfg_plain _ _ h
  have e : (match gdbParse programEnv.cmd ["--fork".toList, "-p".toList, "7".toList] with
    | .ok v program => some (tracedBy v program)
    | .exit _ => none) = some (.attach 7) := by decide +kernel
  rw [hv] at e
  injection e with e
  refine hm 7 (fun n hn => ?_) (fun p hp => ?_)
  · rw [e] at hn
    cases hn
    rfl
  · rw [e] at hp
    cases hp

end PT
