import Verif.Props.Call
import Verif.Props.ArgText

/-! C73: how the array of a `socketcall` is shown when the call is not replaced by the call behind it (`strace.py --socketcall`). -/

namespace PT
open Spec

variable {σ : Type}

private theorem dropEmpty_full (l : List Str) (h : ∀ t ∈ l, t ≠ []) : dropEmpty l = l := by
  unfold dropEmpty
  have : l.reverse.dropWhile (fun x => decide (x = [])) = l.reverse := by
    cases hr : l.reverse with
    | nil => rfl
    | cons t r =>
      have : t ≠ [] := h t (List.mem_reverse.1 (hr ▸ List.mem_cons_self))
      rw [List.dropWhile_cons, if_neg (by simpa using this)]
  rw [this, List.reverse_reverse]

private theorem createText_args {E : ArgEnv σ} {c : SysCall} {a : SysArg} (hc : c.name = "socketcall")
    (ht : a.type = some "unsigned long *") (hn : a.name = some "args") : createText E c a = socketcallArgs E c a := by
  have h1 : argDictText "socketcall" "args" a.value = none := rfl
  have h2 : argumentCallback E c "args" a = none := by
    unfold argumentCallback
    rw [hc]
    rfl
  unfold createText
  rw [ht, hn]
  simp only
  rw [if_neg (by decide), hc, h1]
  simp only
  rw [h2]
  simp only
  unfold createPlain
  rw [if_neg (by simp [hc]), if_neg (by simp [hc]), if_pos ⟨hc, rfl⟩]

/-- One of the first 17 sub-calls, not replaced: the array is shown as the call behind it, with the kernel's name for the number and the words
of the array in order, as many as the kernel takes, as decimal numbers. -/
theorem C73_shown (E : ArgEnv σ) (hty : E.writeTypes = false) (hna : E.writeArgname = false) (c : SysCall) (hc : c.name = "socketcall")
    (call a : SysArg) (hcall : c.arguments[0]? = some call) (ht : a.type = some "unsigned long *") (hn : a.name = some "args")
    (h0 : a.value ≠ 0) (mem : Nat → Nat) (hr : ∀ p s, E.readWord p s = (.ok (mem p), s)) (name : String)
    (hk : (call.value, name) ∈ kernelSocketcall) (h17 : call.value ≤ 17) (s : σ) :
    ∃ n texts rest, argText E c a s = (.ok ('<' :: name.toList ++ '(' :: (", ".toList).intercalate texts ++ [')', '>'] ++ rest), s) ∧
      AddressSuffix E.writeAddress a.value rest ∧ socketcallCount.lookup call.value = some n ∧
      texts.map decNumber = (wordsAt mem E.arch.W a.value n).map some := by
  have h := (List.all_eq_true.1 socket_known) _ hk
  have hb : Nat.ble 18 call.value = false := by
    rw [Bool.eq_false_iff]; intro e; exact absurd (Nat.le_of_ble_eq_true e) (by omega)
  simp only [hb, Bool.false_or, Bool.and_eq_true, decide_eq_true_eq] at h
  obtain ⟨⟨h1, -⟩, h3⟩ := h
  cases hp : prototypes.lookup name with
  | none => rw [hp] at h3; cases h3
  | some p =>
    obtain ⟨r, formats⟩ := p
    rw [hp] at h3
    cases hcount : socketcallCount.lookup call.value with
    | none => rw [hcount] at h3; cases h3
    | some n =>
      rw [hcount] at h3
      simp only [Bool.and_eq_true, decide_eq_true_eq] at h3
      have hl := Nat.eq_of_beq_eq_true h3.2
      obtain ⟨args, g1, -, g3, -⟩ := socketArguments_ok E.arch.W E.readWord mem hr formats a.value s
      have hst : socketcallText call.value = name := by
        unfold socketcallText
        rw [h1]
      have hset : setupSocketCall E.arch.W E.readWord call.value a.value s = (.ok ⟨name, r, args⟩, s) := by
        unfold setupSocketCall
        rw [hst, hp]
        simp only
        rw [Py.run_bind_ok g1]
        rfl
      let texts := args.map fun g => pyDec g.value
      obtain ⟨rest, k1, k2⟩ := pointer_suffix E h0 ('<' :: (name.toList ++ '(' :: (", ".toList).intercalate texts ++ [')']) ++ ['>'])
      refine ⟨n, texts, rest, argText_some ?_, k2, rfl, ?_⟩
      · rw [createText_args hc ht hn]
        unfold socketcallArgs
        rw [Py.run_bind_ok (show argAt c 0 s = (.ok call, s) by unfold argAt; rw [hcall]; rfl), Py.run_bind_ok hset]
        have hf : (args.map fun g : SysArg => (⟨(g.type.getD "").toList, (g.name.getD "").toList, pyDec g.value⟩ : CallArg)).map
            (argFormat ⟨E.writeTypes, E.writeArgname⟩) = texts := by
          rw [List.map_map]
          apply List.map_congr_left
          intro g _
          simp [argFormat, hty, hna]
        have hne : ∀ t ∈ texts, t ≠ [] := by
          intro t ht e
          obtain ⟨g, -, rfl⟩ := List.mem_map.1 ht
          have := decNumber_pyDec g.value
          rw [e] at this
          cases this
        have hcf : callFormat ⟨E.writeTypes, E.writeArgname⟩ r.toList name.toList
            (args.map fun g => ⟨(g.type.getD "").toList, (g.name.getD "").toList, pyDec g.value⟩) =
            name.toList ++ '(' :: (", ".toList).intercalate texts ++ [')'] := by
          unfold callFormat
          rw [hf, dropEmpty_full texts hne]
          simp only
          rw [if_neg (fun e => by rw [hty] at e; cases e.2)]
        simp only [hcf]
        rw [k1]
        simp [Py.pure]
      · rw [← hl, ← g3]
        simp only [texts, List.map_map]
        apply List.map_congr_left
        intro g _
        exact decNumber_pyDec g.value

/-- A number without name among the first 17, as the 18 of `accept4`: the address is shown, as a decimal number. -/
theorem C73_shown_unknown (E : ArgEnv σ) (c : SysCall) (hc : c.name = "socketcall") (call a : SysArg)
    (hcall : c.arguments[0]? = some call) (ht : a.type = some "unsigned long *") (hn : a.name = some "args")
    (h : call.value = 0 ∨ 17 < call.value) (s : σ) : ∃ u, argText E c a s = (.ok u, s) ∧ decNumber u = some a.value := by
  refine ⟨pyDec a.value, ?_, decNumber_pyDec _⟩
  have he : createText E c a s = (.error .key, s) := by
    rw [createText_args hc ht hn]
    unfold socketcallArgs
    rw [Py.run_bind_ok (show argAt c 0 s = (.ok call, s) by unfold argAt; rw [hcall]; rfl)]
    apply Py.run_bind_error
    unfold setupSocketCall
    rw [socketcall_unnamed h]
    rfl
  unfold argText exceptAny
  rw [Py.run_bind_error he]
  rfl

/-- Instance: `socketcall(4, args)`, a `listen(3, 128)` of a 32-bit process. -/
def exListen : SysCall := ⟨"socketcall", "long", [⟨4, some "int", some "call", none⟩, ⟨4096, some "unsigned long *", some "args", none⟩]⟩

example : argText (σ := Unit) ⟨⟨false, false⟩, [], fun _ => true, fun _ => 0, fun _ _ => Py.pure [], fun p => Py.pure (if p = 4096 then 3 else 128),
    fun _ _ => Py.pure ([], false), false, false, false, 300, 20⟩ exListen ⟨4096, some "unsigned long *", some "args", none⟩ () =
    (.ok "<listen(3, 128)>".toList, ()) := by decide +kernel
example : (4, "listen") ∈ kernelSocketcall ∧ (18, "accept4") ∈ kernelSocketcall := by decide +kernel

end PT
