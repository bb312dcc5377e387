import Verif.Lemmas.Local
import Verif.Spec.React
import Verif.Props.Tree

/-! Property theorems C134: under strace.py a program does what it does alone. -/

namespace PT
open PT.Spec

section
variable {events : Bool} {pid : Nat}

/-- What the process is given by these requests. -/
def handedBy (cs : List Call) : List Nat := cs.filterMap fun c => match c with
  | .syscall _ _ n => some n
  | _ => none

theorem handed_map (log : List Entry) : handed log = handedBy (log.map Entry.call) := by
  unfold handed handedBy
  rw [List.filterMap_map]
  rfl

@[simp] theorem handedBy_append (cs ds : List Call) : handedBy (cs ++ ds) = handedBy cs ++ handedBy ds := List.filterMap_append
@[simp] theorem handedBy_nil : handedBy [] = [] := rfl
@[simp] theorem handedBy_await (l : List Call) : handedBy (await pid :: l) = handedBy l := by simp [handedBy, await]
@[simp] theorem handedBy_look (l : List Call) : handedBy (Spec.look pid :: l) = handedBy l := by simp [handedBy, Spec.look]
@[simp] theorem handedBy_print (l : List Call) : handedBy (print pid :: l) = handedBy l := by simp [handedBy, print]
@[simp] theorem handedBy_go (n : Nat) (l : List Call) : handedBy (go pid n :: l) = n :: handedBy l := by simp [handedBy, go]

theorem handedBy_start (V : View) (regs : Nat) : handedBy (atStart V pid regs) = [0] := by
  unfold atStart
  cases V.shown regs <;> cases V.enter <;> simp

theorem handedBy_deed (V : View) (d : Deed) (h : ∀ regs, d ≠ .signal 5 regs) : handedBy (d.requests V pid events) = d.gets := by
  cases d with
  | call regs result => cases hs : V.shown regs <;> simp [Deed.requests, Deed.gets, handedBy_start, hs]
  | exec regs result => cases events <;> cases hs : V.shown regs <;> simp [Deed.requests, Deed.gets, handedBy_start, hs]
  | signal n regs =>
    have : n ≠ 5 := fun hn => h regs (by rw [hn])
    simp [Deed.requests, Deed.gets, this]

theorem handedBy_all (V : View) (attached : Bool) (options : Nat) (deeds : List Deed) (e : Ending) (h : ∀ regs, Deed.signal 5 regs ∉ deeds) :
    handedBy (allRequests V pid events attached options deeds e) = allGets deeds e := by
  have h1 : handedBy ((if attached then [] else [Call.attach 0 pid]) ++ [await pid, .setoptions 0 pid options, go pid 0]) = [0] := by
    cases attached <;> rfl
  have h2 : handedBy (e.requests V pid) = (e.inside.map fun _ => 0).toList := by
    unfold Ending.requests
    cases e.inside with
    | none => simp
    | some regs => cases hb : (V.shown regs && !V.enter) <;> simp [handedBy_start, hb]
  have h3 : handedBy (deeds.flatMap (Deed.requests V pid events)) = deeds.flatMap Deed.gets := by
    induction deeds with
    | nil => rfl
    | cons d ds ih =>
      rw [List.flatMap_cons, List.flatMap_cons, handedBy_append, handedBy_deed V d (fun regs hd => h regs (by rw [hd]; exact List.mem_cons_self)),
        ih fun regs hd => h regs (List.mem_cons_of_mem _ hd)]
  unfold allRequests allGets
  rw [handedBy_append, handedBy_append, h1, h2, h3]
  rfl

theorem gets_length (d : Deed) : d.gets.length = (d.stops events).length := by
  cases d with
  | exec regs result => cases events <;> rfl
  | _ => rfl

theorem allGets_length (first : StatusKind × Nat) (deeds : List Deed) (e : Ending) :
    (allGets deeds e).length + 1 = (allStops events first deeds e).length := by
  have : (deeds.flatMap Deed.gets).length = (deeds.flatMap (Deed.stops events)).length := by
    simp only [List.length_flatMap]
    exact congrArg List.sum (List.map_congr_left fun d _ => gets_length d)
  unfold allGets allStops Ending.stops
  cases e.inside <;> simp [this]

theorem goes_handed (log : List Entry) : goes log = (handed log).length := by
  unfold goes handed
  induction log with
  | nil => rfl
  | cons x xs ih => rcases x with ⟨c, r, d⟩; cases c <;> simp [ih]

/-- A log in which the processes were given these. -/
def handsOver (l : List Nat) : List Entry := l.map fun n => ⟨.syscall 0 0 n, .ok 0 0, []⟩

theorem handed_handsOver (l : List Nat) : handed (handsOver l) = l := by
  unfold handed handsOver
  rw [List.filterMap_map]
  simp [Function.comp_def]

/-- A kernel that is as if the process had been given what it gets when it is left alone. -/
def asAlone (K : Kern) (gets : List Nat) : Kern := fun log => if (handed log).isPrefixOf gets then K log else K (handsOver (gets.take (goes log)))

theorem asAlone_follows {K : Kern} {P : Program} (hK : Performs K pid P) {first : StatusKind × Nat} {deeds : List Deed} {e : Ending}
    (hP : P.Does events first deeds e) : Follows (asAlone K (allGets deeds e)) pid (allStops events first deeds e) := by
  have key : ∀ log x, (allStops events first deeds e)[goes log]? = some x →
      ∃ log', asAlone K (allGets deeds e) log = K log' ∧ P (handed log') = some x := by
    intro log x hx
    have h := hP _ x hx
    unfold asAlone
    split
    · rename_i hp
      refine ⟨log, rfl, ?_⟩
      rw [List.isPrefixOf_iff_prefix] at hp
      rw [List.prefix_iff_eq_take, ← goes_handed] at hp
      rw [hp]
      exact h
    · exact ⟨_, rfl, by rw [handed_handsOver]; exact h⟩
  refine ⟨fun log kind regs hx => ?_, fun log kind regs o hx => ?_, fun log o n => ?_⟩
  · obtain ⟨l, h1, h2⟩ := key log _ hx
    rw [h1]
    exact hK.wait l kind regs h2
  · obtain ⟨l, h1, h2⟩ := key log _ hx
    rw [h1]
    exact hK.look l kind regs o h2
  · unfold asAlone
    split
    · exact hK.accepts log o n
    · exact hK.accepts _ o n
end

/-- **C134** (one process, the deeds are plain, and nobody sends signal 5 to the program). For every program that reacts to the signals it is given, if
it does these deeds when it is left alone, then under strace.py it does the same: at each stop it is given what it would get alone, strace.py makes
exactly the requests for these deeds, and ends with its exit code. -/
theorem C134_transparent_partial (K : Kern) (P : Program) (C : StraceCfg) (pid : Nat) (hp : pid ≠ 0) (hK : Performs K pid P) (events attached : Bool)
    (deeds : List Deed) (e : Ending) (hd : ∀ d ∈ deeds, PlainDeed C events d) (h5 : ∀ regs, Deed.signal 5 regs ∉ deeds)
    (he : (∃ c, e.kind = .exited c) ∨ ∃ n, e.kind = .killed n) (n v : Nat) (hn : n = 5 ∨ n = 19) (hP : P.Does events (.signal n, v) deeds e)
    (fuel : Nat) (hf : (allStops events (.signal n, v) deeds e).length ≤ fuel) :
    ∃ t, straceMain K fuel C pid attached (startState events) = (.ok (some (exitCode deeds e)), t) ∧ t.list = [] ∧ handed t.log = allGets deeds e ∧
      t.log.map Entry.call = allRequests C.view pid events attached (if events then 17 else 1) deeds e := by
  obtain ⟨t, h1, h2, h3⟩ := C125_run_partial (asAlone K (allGets deeds e)) C pid hp events attached deeds e hd he n v hn (asAlone_follows hK hP) fuel hf
  have h4 : handed t.log = allGets deeds e := by rw [handed_map, h3, handedBy_all _ _ _ _ _ h5]
  refine ⟨t, ?_, h2, h4, h3⟩
  rw [← h1]
  refine (local_strace fuel C pid attached (startState events)).agree (asAlone K (allGets deeds e)) K ?_
  show Agree _ _ _ (straceMain _ fuel C pid attached (startState events)).2.log
  rw [h1]
  intro p x _ hx
  unfold asAlone
  have : handed p <+: allGets deeds e := by
    rw [← h4]
    have : p <+: t.log := (List.prefix_append _ _).trans hx
    exact List.IsPrefix.filterMap _ this
  rw [if_pos (List.isPrefixOf_iff_prefix.2 this)]

/-! ## a shell that traps a signal, and a program that is sent signal 5 -/

/-- A kernel that runs a program in process `pid`. -/
def runKern (pid : Nat) (P : Program) : Kern := fun log c =>
  match c, P (handed log) with
  | .waitpid _ _ _, some (kind, _) => .ok pid (statusOf kind)
  | .waitpid _ _ _, none => .err 10
  | .inspect _ _, some (_, regs) => .ok regs 0
  | _, _ => .ok 0 0

theorem runKern_runs (pid : Nat) (P : Program) (h : ∀ l x, P l = some x → waitMeaning (statusOf x.1) = x.1) : Performs (runKern pid P) pid P where
  wait log kind regs hs := ⟨statusOf kind, by unfold runKern; rw [hs], h _ _ hs⟩
  look log kind regs o hs := ⟨0, by unfold runKern; rw [hs]⟩
  accepts log o n := by
    unfold runKern
    cases P (handed log) <;> exact ⟨⟨_, _, rfl⟩, ⟨_, _, rfl⟩, ⟨_, _, rfl⟩, ⟨_, _, rfl⟩⟩

/-- `execve`; then signal `n` arrives. Given the signal, the program writes and leaves with code 3; without it, it leaves with code 4. -/
def trapper (n : Nat) : Program := fun l =>
  match l with
  | [] => some (.signal 5, 0)
  | [_] => some (.signal 133, 59)
  | [_, _] => some (.event 4, 59)
  | [_, _, _] => some (.signal 133, 0)
  | [_, _, _, _] => some (.signal n, 0)
  | _ :: _ :: _ :: _ :: k :: rest =>
    if k = n then
      match rest with
      | [] => some (.signal 133, 1)
      | [_] => some (.signal 133, 5)
      | [_, _] => some (.signal 133, 231)
      | _ => some (.exited 3, 0)
    else
      match rest with
      | [] => some (.signal 133, 231)
      | _ => some (.exited 4, 0)

def trapperDeeds (n : Nat) : List Deed := [.exec 59 0, .signal n 0, .call 1 5]

theorem trapper_status (n : Nat) (hn : n = 5 ∨ n = 15) : ∀ l x, trapper n l = some x → waitMeaning (statusOf x.1) = x.1 := by
  intro l x h
  unfold trapper at h
  repeat' split at h
  all_goals first
    | (cases h; rcases hn with rfl | rfl <;> decide +kernel)

theorem trapper_does (n : Nat) : (trapper n).Does true (.signal 5, 0) (trapperDeeds n) ⟨some 231, .exited 3⟩ := by
  intro i x hx
  rcases i with _ | _ | _ | _ | _ | _ | _ | _ | _ | i
  · exact hx
  · exact hx
  · exact hx
  · exact hx
  · exact hx
  · refine Eq.trans ?_ hx; exact if_pos rfl
  · refine Eq.trans ?_ hx; exact if_pos rfl
  · refine Eq.trans ?_ hx; exact if_pos rfl
  · refine Eq.trans ?_ hx; exact if_pos rfl
  · cases hx

theorem trapperDeeds_plain (enter : Bool) : ∀ d ∈ trapperDeeds 15, PlainDeed (followCfg enter) true d := by
  intro d hd
  simp only [trapperDeeds, List.mem_cons, List.not_mem_nil, or_false] at hd
  rcases hd with rfl | rfl | rfl
  · exact rfl
  · exact (by decide : (15 : Nat) ≠ 133)
  · exact fun _ => rfl

example : ∃ t, straceMain (runKern 42 (trapper 15)) 20 (followCfg false) 42 true (startState true) = (.ok (some 3), t) ∧ t.list = [] ∧
    handed t.log = [0, 0, 0, 0, 15, 0, 0, 0] ∧
    t.log.map Entry.call = allRequests (followCfg false).view 42 true true 17 (trapperDeeds 15) ⟨some 231, .exited 3⟩ :=
  C134_transparent_partial _ (trapper 15) _ 42 (by decide) (runKern_runs _ _ (trapper_status 15 (Or.inr rfl))) true true (trapperDeeds 15)
    ⟨some 231, .exited 3⟩ (trapperDeeds_plain _) (fun _ => by simp [trapperDeeds]) (Or.inl ⟨3, rfl⟩) 5 0 (Or.inl rfl) (trapper_does 15) 20 (by decide)

/-- **C134 refuted** for signal 5: sent to a program (`kill -TRAP`), it does not arrive under strace.py, and the program does something else. -/
theorem C134_trap_refuted :
    Performs (runKern 42 (trapper 5)) 42 (trapper 5) ∧ (trapper 5).Does true (.signal 5, 0) (trapperDeeds 5) ⟨some 231, .exited 3⟩ ∧
    (straceMain (runKern 42 (trapper 5)) 20 (followCfg false) 42 true (startState true)).1 = .ok (some 4) ∧
    handed (straceMain (runKern 42 (trapper 5)) 20 (followCfg false) 42 true (startState true)).2.log = [0, 0, 0, 0, 0, 0] :=
  ⟨runKern_runs _ _ (trapper_status 5 (Or.inl rfl)), trapper_does 5, by decide +kernel, by decide +kernel⟩

end PT
