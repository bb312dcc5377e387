import Verif.Lemmas.Quit
import Verif.Props.Debugger

/-! Property theorems C126: `quit` ends every process that the debugger created and releases the others. -/

namespace PT
open PT.Spec

theorem quitLoop_left {K : Kern} {log : List Entry} {heap : Nat → Proc} (fate : Nat → Fate) {fuel : Nat} (os : List Nat) :
    ∀ (g : List Entry) (s : DSt), (os.map fun o => (heap o).pid).Nodup → s.list = os.reverse → s.log = log ++ g →
      (∀ o ∈ os, s.heap o = heap o ∧ dictGet s.dict (heap o).pid = some o ∧ waits (heap o).pid (g.map Entry.call) = 0) →
      (∀ o ∈ os, (heap o).pid ≠ 0 ∧ (heap o).isAttached = true ∧ Keeps K log o (heap o) (fate o) ∧ (fate o).length < fuel) →
      ∃ t g', quitLoop K fuel os s = (.ok (), t) ∧ t.list = [] ∧ t.log = log ++ g ++ g' ∧
        g'.map Entry.call = os.flatMap fun o => farewell o (heap o) (fate o) := by
  induction os with
  | nil =>
    intro g s _ hl hlog _ _
    exact ⟨s, [], rfl, hl, by rw [hlog]; simp, rfl⟩
  | cons o os ih =>
    intro g s hn hl hlog hs hK
    obtain ⟨h1, h2, h3⟩ := hs o (List.mem_cons_self ..)
    obtain ⟨k1, k2, k3, k4⟩ := hK o (List.mem_cons_self ..)
    obtain ⟨t, e, hleft⟩ := left_one (K := K) (o := o) (s := s) (f := fate o) hlog (by rw [h1]; exact k3) (by rw [h1]; exact k1)
      (by rw [h1]; exact h3) (by rw [h1]; exact k2) (by rw [h1]; exact h2) fuel k4
    obtain ⟨g1, hg1, hc1⟩ := hleft.log
    rw [h1] at hc1
    have hne : ∀ q ∈ os, (heap o).pid ≠ (heap q).pid := by
      intro q hq h
      exact (List.nodup_cons.1 hn).1 (List.mem_map.2 ⟨q, hq, h.symm⟩)
    have hmem : o ∉ os := fun h => hne o h rfl
    obtain ⟨u, g', e', hu, hlog', hc'⟩ := ih (g ++ g1) t (List.nodup_cons.1 hn).2
      (by rw [hleft.list, hl, List.reverse_cons, List.erase_append_right _ (by simpa using hmem)]; simp)
      (by rw [hg1, hlog, List.append_assoc])
      (fun q hq => by
        obtain ⟨q1, q2, q3⟩ := hs q (List.mem_cons_of_mem _ hq)
        refine ⟨(hleft.others q fun h => hmem (h ▸ hq)).trans q1, ?_, ?_⟩
        · rw [hleft.dict, h1, dictGet_del (fun h => hne q hq h.symm), q2]
        · rw [List.map_append, waits_append, q3, hc1, waits_farewell (hne q hq)])
      (fun q hq => hK q (List.mem_cons_of_mem _ hq))
    refine ⟨u, g1 ++ g', ?_, hu, by rw [hlog']; simp, by rw [List.map_append, hc1, hc', List.flatMap_cons]⟩
    obtain ⟨b, w, e1, e2⟩ := Py.ok_of_bind e
    unfold quitLoop
    rw [Py.run_bind_ok e1, Py.run_bind_ok e2]
    exact e'

/-- **C126** for processes that are attached and traced by a kernel that lets each of them end, with any signals on their way: `quit` returns, no
process is left, and its requests are those to leave each process, the last one first. -/
theorem C126_quit_partial (K : Kern) (hz : RealPids K) (s : DSt) (hs : Reach K s) (fate : Nat → Fate) (fuel : Nat)
    (hatt : ∀ o ∈ iterate s, (s.heap o).isAttached = true) (hK : ∀ o ∈ iterate s, Keeps K s.log o (s.heap o) (fate o))
    (hfuel : ∀ o ∈ iterate s, (fate o).length < fuel) :
    ∃ t g, quit K fuel s = (.ok (), t) ∧ iterate t = [] ∧ (∀ pid, getitem t pid = none) ∧ t.log = s.log ++ g ∧
      g.map Entry.call = (iterate s).reverse.flatMap fun o => farewell o (s.heap o) (fate o) := by
  have hr := reach_reg hs
  have hc := consistent_of_regInv hr
  obtain ⟨t, g, e, h1, h2, h3⟩ := quitLoop_left (K := K) (log := s.log) (heap := s.heap) fate (fuel := fuel) s.list.reverse [] s
    (by rw [List.map_reverse]; exact List.nodup_reverse.2 hc.once) (by rw [List.reverse_reverse]) (by simp)
    (fun o ho => ⟨rfl, hr.get (List.mem_reverse.1 ho), rfl⟩)
    (fun o ho => ⟨(reach_pid hz hs).obj o (hr.alloc o (List.mem_reverse.1 ho)), hatt o (List.mem_reverse.1 ho), hK o (List.mem_reverse.1 ho),
      hfuel o (List.mem_reverse.1 ho)⟩)
  refine ⟨t, g, e, h1, ?_, by simpa using h2, h3⟩
  exact (C28_quit_partial K hz s hs fuel t hatt e).2.2

/-- A kernel in which the processes 7 and 9 stop and end with these wait statuses, `kill` replies `killReply`, and nothing else is refused. -/
def fated (seven nine : List Int) (killReply : Reply) : Kern := fun log c =>
  match c with
  | .waitpid (some p) _ _ =>
    match (if p = 7 then seven else nine)[waits p (log.map Entry.call)]? with
    | some st => .ok p st
    | none => .err 10
  | .kill _ _ _ => killReply
  | _ => .ok 1 0

theorem realPids_fated (seven nine : List Int) (r : Reply) : RealPids (fated seven nine r) := by
  intro log o pid st h
  injection h with h _
  cases h

/-- Two signals are on their way when process 7 is killed. -/
def lingering : Kern := fated [0x137f, 0x0a7f, 0x137f, 9] [0x137f] (.ok 0 0)

def lingeringFate : Nat → Fate := fun _ => .ends [10, 19] (.killed 9)

theorem lingering_ends : Ends lingering (two lingering).log 0 7 false [10, 19] (.killed 9) := by
  refine ⟨trivial, ?_, fun g n => ⟨⟨1, 0, rfl⟩, 0, 0, rfl⟩⟩
  intro g k h
  have e : waits 7 (((two lingering).log ++ g).map Entry.call) = 1 + waits 7 (g.map Entry.call) := by
    rw [List.map_append, waits_append]
    have : waits 7 ((two lingering).log.map Entry.call) = 1 := by decide +kernel
    rw [this]
  have e2 : lingering ((two lingering).log ++ g) (.waitpid (some 7) false false) =
      match ([0x137f, 0x0a7f, 0x137f, 9] : List Int)[1 + waits 7 (g.map Entry.call)]? with
      | some st => .ok 7 st
      | none => .err 10 := by
    rw [← e]
    rfl
  rw [e2]
  generalize waits 7 (g.map Entry.call) = n at h
  match n, h with
  | 0, h => injection h with h; subst h; exact ⟨0x0a7f, rfl, by decide⟩
  | 1, h => injection h with h; subst h; exact ⟨0x137f, rfl, by decide⟩
  | 2, h => injection h with h; subst h; exact ⟨9, rfl, by decide⟩
  | n + 3, h => cases h

theorem lingering_keeps : ∀ o ∈ iterate (two lingering), Keeps lingering (two lingering).log o ((two lingering).heap o) (lingeringFate o) := by
  intro o ho
  have hi : iterate (two lingering) = [0, 1] := by decide +kernel
  rw [hi] at ho
  rcases List.mem_cons.1 ho with rfl | ho
  · have h : ((two lingering).heap 0).wasAttached = true ∧ ((two lingering).heap 0).pid = 7 ∧ ((two lingering).heap 0).isThread = false := by
      decide +kernel
    intro _
    rw [h.1, h.2.1, h.2.2, if_pos rfl]
    exact lingering_ends
  · obtain rfl := List.mem_singleton.1 ho
    have h : ((two lingering).heap 1).wasAttached = false := by decide +kernel
    intro _
    rw [h, if_neg (by decide)]
    exact fun g => ⟨1, 0, rfl⟩

example := C126_quit_partial lingering (realPids_fated _ _ _) (two lingering) (reach_two _) lingeringFate 5 (by decide +kernel) lingering_keeps
  (fun _ _ => by show 2 < 5; decide)

/-- The requests in this case: process 9 is released, process 7 is killed and followed to its end. -/
example : ((iterate (two lingering)).reverse.flatMap fun o => farewell o ((two lingering).heap o) (lingeringFate o)) =
    [.detach 1 9, .cont 0 7 9, .waitpid (some 7) false false, .cont 0 7 10, .waitpid (some 7) false false, .cont 0 7 0,
      .waitpid (some 7) false false] := by
  decide +kernel

/-- One process attached, then one created. -/
def twoBack (K : Kern) : DSt := runOps K 5 [.addProcess 9 false none false, .addProcess 7 true none false] newDebugger

theorem reach_twoBack (K : Kern) : Reach K (twoBack K) :=
  .call (.call .new 5 (.addProcess 9 false none false) (by show (9 : Nat) ≠ 0; decide)) 5
    (.addProcess 7 true none false) (by show (7 : Nat) ≠ 0; decide)

/-- **C126** is false if an event is on its way: `quit` raises it as an exception. The process that was killed stays registered, and one that
was attached before it is never released. -/
theorem C126_event_refuted : ∃ (K : Kern) (s t : DSt) (o : Nat), RealPids K ∧ Reach K s ∧ (∀ q ∈ iterate s, (s.heap q).isAttached = true) ∧
    quit K 5 s = (.error (.event (.execution o)), t) ∧ iterate t = iterate s ∧ detachCount 0 t.log = 0 := by
  refine ⟨fated [0x137f, 0x4057f, 9] [0x137f] (.ok 0 0), twoBack (fated [0x137f, 0x4057f, 9] [0x137f] (.ok 0 0)),
    (quit (fated [0x137f, 0x4057f, 9] [0x137f] (.ok 0 0)) 5 (twoBack (fated [0x137f, 0x4057f, 9] [0x137f] (.ok 0 0)))).2, 1, realPids_fated _ _ _,
    reach_twoBack _, by decide +kernel, pair_eq (by decide +kernel), by decide +kernel, by decide +kernel⟩

/-- **C126** is false if a process that was let go on is not there any more: the error of `kill` is no `PtraceError`, and `quit` raises it, with the
same result. -/
theorem C126_gone_refuted : ∃ (K : Kern) (s t : DSt), RealPids K ∧ Reach K s ∧ (∀ q ∈ iterate s, (s.heap q).isAttached = true) ∧
    quit K 5 s = (.error (.os 3), t) ∧ iterate t = iterate s ∧ detachCount 0 t.log = 0 := by
  refine ⟨fated [0x137f] [0x137f] (.err 3), (runOp (fated [0x137f] [0x137f] (.err 3)) 5 (.cont 1 0) (twoBack (fated [0x137f] [0x137f] (.err 3)))).2,
    (quit (fated [0x137f] [0x137f] (.err 3)) 5
      (runOp (fated [0x137f] [0x137f] (.err 3)) 5 (.cont 1 0) (twoBack (fated [0x137f] [0x137f] (.err 3)))).2).2, realPids_fated _ _ _,
    .call (reach_twoBack _) 5 (.cont 1 0) trivial, by decide +kernel, pair_eq (by decide +kernel), by decide +kernel, by decide +kernel⟩

/-- The kernel of a user who presses Control-C while quit waits for the end of process 7. -/
def pressed : Kern := fun log c =>
  match c with
  | .waitpid (some p) _ _ => if log.any (fun e => e.call == .cont 1 7 9) then .interrupt else .ok p 0x137f
  | _ => .ok 1 0

/-- **C126** is false if the user presses Control-C while `quit` waits: the processes created before the one that is waited for are not killed, they stay registered. -/
theorem C126_interrupt_refuted : ∃ (K : Kern) (s t : DSt), RealPids K ∧ Reach K s ∧ (∀ q ∈ iterate s, (s.heap q).isAttached = true ∧ (s.heap q).wasAttached = true) ∧
    quit K 5 s = (.error .interrupt, t) ∧ iterate t = [0, 1] ∧ ∀ e ∈ t.log, sends e.call = some 9 → e.call = .cont 1 7 9 := by
  refine ⟨pressed, runOps pressed 5 [.addProcess 9 true none false, .addProcess 7 true none false] newDebugger,
    (quit pressed 5 (runOps pressed 5 [.addProcess 9 true none false, .addProcess 7 true none false] newDebugger)).2, ?_,
    .call (.call .new 5 (.addProcess 9 true none false) (by show (9 : Nat) ≠ 0; decide)) 5 (.addProcess 7 true none false) (by show (7 : Nat) ≠ 0; decide),
    by decide +kernel, pair_eq (by decide +kernel), by decide +kernel, by decide +kernel⟩
  intro log o pid st h
  injection h with h _
  cases h

end PT
