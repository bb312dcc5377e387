import Verif.Props.Open
import Verif.Props.TreeLines
import Verif.Spec.OpenLines
import Verif.Lemmas.LocalOut
import Verif.Props.CallText

/-! Property theorems C136: what strace.py prints in an open world. -/

namespace PT
open PT.Spec

section
variable {K : Kern} {T : Tree} {C : StraceCfg} {events attached : Bool} {options : Nat} {F : LineView}

/-- Waiting until some process reports a stop, or as long as one likes. -/
theorem wait_some (hK : Grows K T) (fuel : Nat) : ∀ (n : Nat) (s : DSt), Settled T s → s.dict ≠ [] →
    (∃ g, (∀ e ∈ g, idle e = true) ∧ waitAny K (fuel + 1) n true s = (.error .diverge, { s with log := s.log ++ g })) ∨
    ∃ p o kind v st g, Found K T fuel s (waitAny K (fuel + 1) n true s) p o kind v st g
  | 0, s, _, _ => Or.inl ⟨[], by simp, by simp [waitAny, Py.raise]⟩
  | n + 1, s, hr, hne => by
    unfold waitAny
    split
    · rename_i h
      exact absurd (List.map_eq_nil_iff.1 h) hne
    · rename_i pid h
      obtain ⟨o, hd⟩ := hr.keys pid (by rw [h]; simp)
      rcases ask_one (K := K) hK hr hd fuel true with ⟨hb, -⟩ | ⟨kind, v, st, g, hf⟩
      · cases hb
      · exact Or.inr ⟨pid, o, kind, v, st, g, hf⟩
    · rcases ask_all hK fuel (s.dict.map Prod.fst) s hr (fun q hq => hq) with ⟨g, g1, g2, g3, g4⟩ | ⟨p, o, kind, v, st, g, hf⟩
      · rw [Py.run_bind_ok g3]
        dsimp only
        rw [if_pos rfl]
        obtain ⟨v, st, hk⟩ := (hK.accepts (s.log ++ g) 0 0 0).2.2.2.2
        have e1 : osCall K .sleep { s with log := s.log ++ g } = (.ok (v, st), { s with log := s.log ++ (g ++ [⟨.sleep, .ok v st, s.dict⟩]) }) := by
          unfold osCall sysc Py.bind
          dsimp only
          rw [hk]
          simp [Py.pure]
        rw [Py.run_bind_ok e1]
        have hi : ∀ e ∈ g ++ [⟨.sleep, .ok v st, s.dict⟩], idle e = true := by
          intro e he
          rcases List.mem_append.1 he with he | he
          · exact g1 e he
          · rw [List.mem_singleton.1 he]; rfl
        rcases wait_some hK fuel n _ (hr.idle hi) hne with ⟨g', h1, h2⟩ | ⟨p, o, kind, w, st', g', hf⟩
        · refine Or.inl ⟨(g ++ [⟨.sleep, .ok v st, s.dict⟩]) ++ g', ?_, ?_⟩
          · intro e he
            rcases List.mem_append.1 he with he | he
            · exact hi e he
            · exact h1 e he
          · dsimp only at h2
            rw [h2]
            simp
        · exact Or.inr ⟨p, o, kind, w, st', _, hf.before hi⟩
      · refine Or.inr ⟨p, o, kind, v, st, g, hf.get, hf.stop, hf.status, hf.idle, ?_⟩
        have h := hf.result
        unfold Py.bind at h ⊢
        rw [h]
        dsimp only
        generalize processStatus K (waitEventPid K fuel) o st { s with log := s.log ++ g } = x
        obtain ⟨x, u⟩ := x
        cases x <;> rfl

/-- What has been printed so far, at a moment between two stops. -/
structure Told (T : Tree) (C : StraceCfg) (F : LineView) (events attached : Bool) (options : Nat) (t : DSt) (blocks : List Block) : Prop where
  order : blocks.map Block.pid = reported t.log
  each : ∀ p, ∃ started, ProcBlocks F (C.wish events options) T.root t.log p (T.thread p) ((T.stops p).take (awaits p t.log)) started
    (blocks.filter fun b => b.pid == p)

theorem Told.between {s : DSt} {k : Nat → Nat} {blocks : List Block} {started : Nat → Nat} (hT : T.Good (C.wish events options))
    (h : Between T C events attached options s k) (hs : Said T C F events options s k blocks started) {g : List Entry} (hg : ∀ e ∈ g, idle e = true) :
    Told T C F events attached options { s with log := s.log ++ g } blocks := by
  have ha : ∀ p, awaits p (s.log ++ g) = k p := by
    intro p
    rw [awaits_eq, cares_append, idle_cares hg, List.append_nil, ← awaits_eq]
    rcases Nat.eq_zero_or_pos (k p) with h0 | h0
    · rw [awaits_eq, h.log p, h0]
      split <;> rfl
    · exact h.awaits hT h0
  refine ⟨?_, fun p => ⟨started p, ?_⟩⟩
  · show _ = reported (s.log ++ g)
    rw [reported_append, hs.order, reported_only (g := g) (p := 0) (fun q _ => idle_cares hg q), idle_cares hg]
    simp
  · show ProcBlocks _ _ _ (s.log ++ g) _ _ (List.take (awaits p (s.log ++ g)) _) _ _
    rw [ha p]
    exact procBlocks_more (hs.each p) g

/-- The loop of strace.py has printed the blocks of the stops told so far when it ends, and when one stops to watch. -/
theorem open_loop_out (hK : Grows K T) (hT : T.Good (C.wish events options)) (hopt : options ≠ 0) (fuel : Nat) :
    ∀ (n : Nat) (s : DSt) (k : Nat → Nat) (code : Nat) (out : List Str) (blocks : List Block) (started : Nat → Nat),
      Between T C events attached options s k → Said T C F events options s k blocks started →
      ∃ r t bs, straceLoopOut K (fuel + 2) C F n code ⟨s, out⟩ = (r, ⟨t, out ++ bs.flatMap Block.lines⟩) ∧
        (r = .error .diverge ∨ (r = .ok (bs.foldl Block.after code) ∧ t.list = [])) ∧ Told T C F events attached options t (blocks ++ bs)
  | 0, s, k, code, out, blocks, started, h, hsd => by
    refine ⟨.error .diverge, s, [], by simp [straceLoopOut, Py.raise], Or.inl rfl, ?_⟩
    have := Told.between hT h hsd (g := []) (by simp)
    simpa using this
  | n + 1, s, k, code, out, blocks, started, h, hsd => by
    by_cases hl : s.list = []
    · refine ⟨.ok code, s, [], ?_, Or.inr ⟨rfl, hl⟩, ?_⟩
      · show (if length s = 0 then _ else _) = _
        rw [if_pos (by unfold length; rw [hl]; rfl)]
        simp
      · have := Told.between hT h hsd (g := []) (by simp)
        simpa using this
    · have hne : s.dict ≠ [] := by
        intro hd
        obtain ⟨o, os, ho⟩ := List.exists_cons_of_ne_nil hl
        have := (h.reg.agree (s.heap o).pid o).2 ⟨by rw [ho]; simp, rfl⟩
        rw [hd] at this
        cases this
      rcases wait_some hK (fuel + 1) (fuel + 2) s (h.settled hT) hne with ⟨g, hg, hw⟩ | ⟨p, o, kind, v, st, g, hf⟩
      · refine ⟨.error .diverge, { s with log := s.log ++ g }, [], ?_, Or.inl rfl, by simpa using Told.between hT h hsd hg⟩
        have hw' : waitSyscall K (fuel + 2) none s = (.error .diverge, { s with log := s.log ++ g }) := by
          unfold waitSyscall waitSignals waitProcessEvent
          dsimp only [Option.map]
          rw [Py.run_bind_error hw]
        have e1 : straceTurnOut K (fuel + 2) C F code ⟨s, out⟩ = (.error .diverge, ⟨{ s with log := s.log ++ g }, out⟩) := by
          unfold straceTurnOut
          dsimp only
          rw [hw']
          rfl
        show (if length s = 0 then _ else _) = _
        rw [if_neg (by unfold length; intro hc; exact hl (List.length_eq_zero_iff.1 hc)), Py.run_bind_error e1]
        simp
      · obtain ⟨code', t, k', p, o, kind, v, st, g, r, u, e, hb, hle, hp, hlt, hf, ht⟩ := tree_turn_found hK h hT hopt hf code
        have hw := ht.wait
        obtain ⟨lines, e1, hlines⟩ := turn_out (F := F) out (by rw [hw]; exact turn_proc h hf.get ht) e
        rw [hw] at hlines
        unfold straceTurn at e
        rw [hw] at e
        obtain ⟨bs, started', rfl, hsd', rfl⟩ := said_turn hK h hT hsd hf ht hb e hlines
        obtain ⟨r2, t2, bs2, e2, hr2, hto⟩ := open_loop_out hK hT hopt fuel n t k' (bs.foldl Block.after code)
          (out ++ bs.flatMap Block.lines) (blocks ++ bs) started' hb hsd'
        refine ⟨r2, t2, bs ++ bs2, ?_, ?_, by rw [← List.append_assoc]; exact hto⟩
        · show (if length s = 0 then _ else _) = _
          rw [if_neg (by unfold length; intro hc; exact hl (List.length_eq_zero_iff.1 hc)), Py.run_bind_ok e1, e2, List.flatMap_append,
            List.append_assoc]
        · rw [List.foldl_append]
          exact hr2

/-- strace.py has printed the blocks of the stops told so far when it ends, and when one stops to watch. -/
theorem open_main_out (hK : Grows K T) {fork exec clone : Bool} (hT : T.Good (C.wish exec (treeOptions fork exec clone))) (F : LineView) (X : MainTexts)
    (attached : Bool) (fuel : Nat) (out : List Str) :
    ∃ r t blocks, straceMainOut K (fuel + 2) C F X T.root attached ⟨treeState fork exec clone, out⟩ =
        (r, ⟨t, out ++ firstLine X T.root attached :: blocks.flatMap Block.lines⟩) ∧
      (r = .error .diverge ∨ r = .ok (some (blocks.foldl (fun code b => b.code.getD code) 0))) ∧
      Told T C F exec attached (treeOptions fork exec clone) t blocks := by
  obtain ⟨s1, e1, e0, h1⟩ := tree_begin hK hT attached (fuel + 1)
  rw [Py.run_bind_ok e0] at e1
  dsimp only at e1
  generalize (createProcess K (fuel + 1 + 1) T.root attached (treeState fork exec clone)).2 = s0 at e0 e1
  have hc : createProcessOut K (fuel + 2) X T.root attached ⟨treeState fork exec clone, out⟩ = (.ok (some 0), ⟨s0, out ++ [firstLine X T.root attached]⟩) := by
    unfold createProcess at e0
    unfold createProcessOut
    rw [Py.run_bind_ok (say_eq _ _)]
    unfold inside
    dsimp only
    rcases ha : addProcess K (waitEventPid K (fuel + 2)) T.root attached none false (treeState fork exec clone) with ⟨r, t⟩
    rw [show fuel + 1 + 1 = fuel + 2 from rfl, ha] at e0
    cases r with
    | ok o =>
      injection e0 with h1 h2
      injection h1 with h1
      rw [← h1, ← h2]
    | error x =>
      cases x with
      | event ev => cases ev <;> cases e0
      | _ => cases e0
  obtain ⟨r, t, bs, e2, hr, hto⟩ := open_loop_out (F := F) hK hT (treeOptions_ne fork exec clone) fuel (fuel + 2) s1 _ 0
    (out ++ [firstLine X T.root attached]) _ _ h1 (said_begin hT h1)
  have e3 : syscallTraceOut K (fuel + 2) C F 0 ⟨s0, out ++ [firstLine X T.root attached]⟩ =
      (r, ⟨t, out ++ firstLine X T.root attached :: bs.flatMap Block.lines⟩) := by
    unfold syscallTraceOut
    rw [Py.run_bind_ok (a := ()) (u := ⟨s1, out ++ [firstLine X T.root attached]⟩)]
    · rw [e2, List.append_assoc]
      rfl
    · unfold inside
      dsimp only
      rw [e1]
  have hlines : ([(⟨T.root, [], none⟩ : Block)] ++ bs).flatMap Block.lines = bs.flatMap Block.lines := by simp
  rcases hr with rfl | ⟨rfl, hl⟩
  · refine ⟨.error .diverge, t, [⟨T.root, [], none⟩] ++ bs, ?_, Or.inl rfl, hto⟩
    rw [hlines]
    have e4 : straceRunOut K (fuel + 2) C F X T.root attached ⟨treeState fork exec clone, out⟩ =
        (.error .diverge, ⟨t, out ++ firstLine X T.root attached :: bs.flatMap Block.lines⟩) := by
      unfold straceRunOut
      rw [Py.run_bind_ok hc]
      dsimp only
      rw [Py.run_bind_error e3]
    unfold straceMainOut
    rw [e4]
    rfl
  · refine ⟨.ok (some (([(⟨T.root, [], none⟩ : Block)] ++ bs).foldl (fun (code : Nat) (b : Block) => b.code.getD code) 0)), t, [⟨T.root, [], none⟩] ++ bs, ?_, Or.inr rfl, hto⟩
    have hfold : ([(⟨T.root, [], none⟩ : Block)] ++ bs).foldl (fun (code : Nat) (b : Block) => b.code.getD code) 0 = bs.foldl Block.after 0 := rfl
    rw [hfold, hlines]
    have e4 : straceRunOut K (fuel + 2) C F X T.root attached ⟨treeState fork exec clone, out⟩ =
        (.ok (some (bs.foldl Block.after 0)), ⟨t, out ++ firstLine X T.root attached :: bs.flatMap Block.lines⟩) := by
      unfold straceRunOut
      rw [Py.run_bind_ok hc]
      dsimp only
      rw [Py.run_bind_ok e3]
      rfl
    unfold straceMainOut
    rw [e4]
    dsimp only
    refine (Py.run_bind_ok (u := (⟨t, out ++ firstLine X T.root attached :: bs.flatMap Block.lines⟩ : Con DSt)) rfl).trans ?_
    rw [Py.run_bind_ok (a := ()) (u := ⟨t, out ++ firstLine X T.root attached :: bs.flatMap Block.lines⟩)]
    · rfl
    · unfold inside quit
      dsimp only
      rw [hl]
      rfl
end

/-- **C136** (as C135). In an open world, for every run of `strace.py -f`, ended or watched for as long as one likes: strace.py has printed the line about
the first process and then for each stop told so far, in the order in which they were told, exactly the lines of this stop, and nothing else. If it has
ended, its exit code is set by the last stop that has one. -/
theorem C136_lines_partial (K : Kern) (N : World) (C : StraceCfg) (F : LineView) (X : MainTexts) (root : Nat) (thread : Nat → Bool)
    (fork exec clone attached : Bool) (fuel : Nat) (hf : 1 < fuel)
    (hK : Kept (straceMain K fuel C root attached (treeState fork exec clone)).2.log N (C.wish exec (treeOptions fork exec clone)) root thread attached)
    (out : List Str) :
    ∃ r t first blocks, straceMainOut K fuel C F X root attached ⟨treeState fork exec clone, out⟩ = (r, ⟨t, out ++ first :: blocks.flatMap Block.lines⟩) ∧
      (r = .error .diverge ∨ r = .ok (some (blocks.foldl (fun code b => b.code.getD code) 0))) ∧
      FirstLine X.program0 X.args root attached first ∧
      OpenBlocks F (C.wish exec (treeOptions fork exec clone)) N root thread t.log blocks := by
  obtain ⟨fuel, rfl⟩ : ∃ m, fuel = m + 2 := ⟨fuel - 2, by omega⟩
  obtain ⟨h, hh⟩ := Meets.all (fuel + 2) hK (List.prefix_refl _)
  obtain ⟨s1, s2⟩ := C130_same K (fuel + 2) C F X root attached ⟨treeState fork exec clone, out⟩
  generalize hL : (straceMain K (fuel + 2) C root attached (treeState fork exec clone)).2.log = L at h hh
  let T := soonOver N (C.wish exec (treeOptions fork exec clone)) root thread L
  obtain ⟨r, t, blocks, e, hr, hto⟩ := open_main_out (h.grows hh) (h.good hK.main) F X attached fuel out
  have ha := (localOut_strace (fuel + 2) C F X root attached ⟨treeState fork exec clone, out⟩).agree K (untilNow K T L)
    (by
      intro a x _ hx
      refine untilNow_on (hx.trans ?_)
      show (straceMainOut K (fuel + 2) C F X root attached ⟨treeState fork exec clone, out⟩).2.inner.log <+: L
      rw [s2, hL]
      exact List.prefix_refl _)
  have ha := packed_eq ha
  change straceMainOut (untilNow K T L) (fuel + 2) C F X root attached ⟨treeState fork exec clone, out⟩ = _ at ha
  change straceMainOut (untilNow K T L) (fuel + 2) C F X root attached ⟨treeState fork exec clone, out⟩ = _ at e
  rw [e] at ha
  change _ = straceMainOut K (fuel + 2) C F X root attached ⟨treeState fork exec clone, out⟩ at ha
  have key : ∀ p, stopsMade N p L ≠ [] → p ≠ 0 ∧ Announced N root L p := by
    intro p hp
    refine h.announced hK.main.1 (h.born hK.main hh (fuel := fuel + 2) (by rw [hL]; exact List.prefix_refl _) fun hc => hp ?_)
    have := h.count p
    rw [awaits_eq, hc] at this
    exact List.length_eq_zero_iff.1 this.symm
  have hlog : t.log = L := by
    rw [← ha] at s2
    dsimp only at s2
    rw [s2, hL]
  have each : ∀ p, ∃ started, ProcBlocks F (C.wish exec (treeOptions fork exec clone)) root t.log p (thread p) (stopsMade N p t.log) started
      (blocks.filter fun b => b.pid == p) := by
    intro p
    obtain ⟨started, hp⟩ := hto.each p
    refine ⟨started, ?_⟩
    have hs : List.take (awaits p t.log) (T.stops p) = stopsMade N p t.log := by
      rw [hlog, h.count]
      show List.take _ (soonStops N _ thread L p) = _
      unfold soonStops
      split
      · rename_i hp0
        subst hp0
        rw [List.take_nil]
        symm
        by_contra hne
        exact (key 0 hne).1 rfl
      · rw [List.take_left]
    rw [← hs]
    exact hp
  refine ⟨r, t, firstLine X root attached, blocks, ha.symm, hr, firstLine_text X root attached, hto.order, each, fun b hb => ?_⟩
  obtain ⟨started, hp⟩ := each b.pid
  have hl := procBlocks_length hp
  rw [hlog] at hl ⊢
  refine (key b.pid fun hn => ?_).2
  rw [hn] at hl
  have hm : b ∈ blocks.filter fun b' => b'.pid == b.pid := List.mem_filter.2 ⟨hb, by simp⟩
  rw [List.length_eq_zero_iff.1 hl] at hm
  cases hm

/-- **C136** (as above, and as C132: calls with a prototype, kernels whose replies are complete). In an open world, a call that has ended and is to be
shown has one line at the stop that ended it, and this line shows the registers and the memory of the process at the two stops of the call. -/
theorem C136_text_partial (H : CallHost) (v : Convention) (hv : (H.cpu, v) ∈ textCpus) (k : Kernel) (kfuel : Nat) (hH : OverKernel H k kfuel)
    (world : Nat → Snap) (gone : MemSt) (base : LineView) (K : Kern) (N : World) (C : StraceCfg) (X : MainTexts) (root : Nat) (thread : Nat → Bool)
    (fork exec clone attached : Bool) (fuel : Nat) (hf : 1 < fuel)
    (hK : Kept (straceMain K fuel C root attached (treeState fork exec clone)).2.log N (C.wish exec (treeOptions fork exec clone)) root thread attached)
    (out : List Str) :
    ∃ (r : Except Exc (Option Nat)) (t : DSt) (first : Str) (blocks : List Block),
      straceMainOut K fuel C (H.view world gone base) X root attached ⟨treeState fork exec clone, out⟩ =
        (r, ⟨t, out ++ first :: blocks.flatMap Block.lines⟩) ∧
      ∀ p i regs result, (stopsMade N p t.log)[i]? = some (.signal 133, result) →
        (history (C.wish exec (treeOptions fork exec clone)) (thread p) ((stopsMade N p t.log).take i)).1 = .inside regs →
        (C.wish exec (treeOptions fork exec clone)).view.shown regs = true →
        ∀ name restype formats, Known H v (world regs) name restype formats →
          ∃ line, ((blocks.filter fun b => b.pid == p)[i]?).map Block.lines = some [line] ∧
            LineClaim H v base (world regs) (world result) p name restype formats line := by
  obtain ⟨r, t, first, blocks, h1, _, _, h2⟩ := C136_lines_partial K N C (H.view world gone base) X root thread fork exec clone attached fuel hf hK out
  refine ⟨r, t, first, blocks, h1, fun p i regs result hi hin hs name restype formats hk => ?_⟩
  obtain ⟨started, h3⟩ := h2.each p
  obtain ⟨b, s', now, e1, _, e3⟩ := (procBlocks_at h3).2 i _ hi
  rw [hin] at e3
  simp only [StopLines, if_true, hs] at e3
  obtain ⟨line, l1, l2⟩ := e3
  refine ⟨line, ?_, C132_line_partial H v hv k kfuel hH world gone base p s' regs result name restype formats hk line l2⟩
  rw [e1, Option.map_some, l1]

/-- The lines of calls that have not ended. -/
theorem cut_lines {F : LineView} {W : Wish} {root : Nat} {log : List Entry} {p : Nat} {wall : Bool} {stops : List Report} {started : Nat}
    {bs : List Block} (h : ProcBlocks F W root log p wall stops started bs) (i regs : Nat) (hs : W.view.shown regs = true) :
    ((history W wall (stops.take i)).1 = .outside → stops[i]? = some (.signal 133, regs) → W.view.enter = true →
      ∃ line id, (bs[i]?).map Block.lines = some [line] ∧ CallLine F p ⟨id, regs, none⟩ line) ∧
    ((history W wall (stops.take i)).1 = .inside regs → ∀ kind x, stops[i]? = some (kind, x) → ((∃ c, kind = .exited c) ∨ ∃ n, kind = .killed n) →
      W.view.enter = false → ∃ line last id, (bs[i]?).map Block.lines = some [line, last] ∧ CallLine F p ⟨id, regs, none⟩ line) := by
  refine ⟨fun hin hi he => ?_, fun hin kind x hi hkind he => ?_⟩
  · obtain ⟨b, s', now, e1, _, e3⟩ := (procBlocks_at h).2 i _ hi
    rw [hin] at e3
    simp only [StopLines, if_true, hs, he, Bool.and_self] at e3
    obtain ⟨line, l1, l2⟩ := e3
    exact ⟨line, now, by rw [e1, Option.map_some, l1], l2⟩
  · obtain ⟨b, s', now, e1, _, e3⟩ := (procBlocks_at h).2 i _ hi
    rw [hin] at e3
    rcases hkind with ⟨c, rfl⟩ | ⟨n, rfl⟩
    all_goals
      simp only [StopLines, if_true, hs, he, Bool.not_false, Bool.and_self] at e3
      obtain ⟨cut, last, l1, -, line, l3, l4⟩ := e3
      exact ⟨line, last, s', by rw [e1, Option.map_some, l1, l3]; rfl, l4⟩

/-- **C136** (as above). In an open world, the lines of calls that have not ended: with `--enter` each shown call has one at the stop in which it begins;
without, a shown call that a process ends in has one when the process ends. -/
theorem C136_cut_partial (H : CallHost) (v : Convention) (hv : (H.cpu, v) ∈ textCpus) (k : Kernel) (kfuel : Nat) (hH : OverKernel H k kfuel)
    (world : Nat → Snap) (gone : MemSt) (base : LineView) (K : Kern) (N : World) (C : StraceCfg) (X : MainTexts) (root : Nat) (thread : Nat → Bool)
    (fork exec clone attached : Bool) (fuel : Nat) (hf : 1 < fuel)
    (hK : Kept (straceMain K fuel C root attached (treeState fork exec clone)).2.log N (C.wish exec (treeOptions fork exec clone)) root thread attached)
    (henter : H.enter = C.enter) (out : List Str) :
    ∃ (r : Except Exc (Option Nat)) (t : DSt) (first : Str) (blocks : List Block),
      straceMainOut K fuel C (H.view world gone base) X root attached ⟨treeState fork exec clone, out⟩ =
        (r, ⟨t, out ++ first :: blocks.flatMap Block.lines⟩) ∧
      ∀ p i regs name restype formats,
        (C.wish exec (treeOptions fork exec clone)).view.shown regs = true → Known H v (world regs) name restype formats →
        ((history (C.wish exec (treeOptions fork exec clone)) (thread p) ((stopsMade N p t.log).take i)).1 = .outside →
          (stopsMade N p t.log)[i]? = some (.signal 133, regs) → C.enter = true →
          ∃ line, ((blocks.filter fun b => b.pid == p)[i]?).map Block.lines = some [line] ∧
            CutClaim H v base (world regs) (world regs).mem p name restype formats line) ∧
        ((history (C.wish exec (treeOptions fork exec clone)) (thread p) ((stopsMade N p t.log).take i)).1 = .inside regs →
          ∀ kind x, (stopsMade N p t.log)[i]? = some (kind, x) → ((∃ c, kind = .exited c) ∨ ∃ n, kind = .killed n) → C.enter = false →
          ∃ line last, ((blocks.filter fun b => b.pid == p)[i]?).map Block.lines = some [line, last] ∧
            CutClaim H v base (world regs) gone p name restype formats line) := by
  obtain ⟨r, t, first, blocks, h1, _, _, h2⟩ := C136_lines_partial K N C (H.view world gone base) X root thread fork exec clone attached fuel hf hK out
  refine ⟨r, t, first, blocks, h1, fun p i regs name restype formats hs hk => ?_⟩
  obtain ⟨started, h3⟩ := h2.each p
  obtain ⟨c1, c2⟩ := cut_lines h3 i regs hs
  refine ⟨fun hin hi he => ?_, fun hin kind x hi hkind he => ?_⟩
  · obtain ⟨line, now, l1, l2⟩ := c1 hin hi he
    have := C132_cut_partial H v hv k kfuel hH world gone base p now regs name restype formats hk line l2
    rw [henter, he, if_pos rfl] at this
    exact ⟨line, l1, this⟩
  · obtain ⟨line, last, now, l1, l2⟩ := c2 hin kind x hi hkind he
    have := C132_cut_partial H v hv k kfuel hH world gone base p now regs name restype formats hk line l2
    rw [henter, he, if_neg (by decide)] at this
    exact ⟨line, last, l1, this⟩

theorem quiet_all {W : Wish} {thread : Nat → Bool} {stops : Nat → List Report} {pids : List Nat}
    (h : (pids.all fun p => (List.range (stops p).length).all fun i => match (stops p)[i]? with
      | some (.signal n, _) => decide (n = 133) || decide ((history W (thread p) ((stops p).take i)).1 = .unborn)
      | _ => true) = true) : ∀ p ∈ pids, Quiet W (thread p) (stops p) := by
  intro p hp i n v hi
  have h1 := (List.all_eq_true.1 h) p hp
  have h2 := (List.all_eq_true.1 h1) i (List.mem_range.2 (List.getElem?_eq_some_iff.1 hi).1)
  rw [hi] at h2
  simp only [Bool.or_eq_true, decide_eq_true_eq] at h2
  rcases h2 with h2 | h2
  · exact .inl h2
  · exact .inr (.inl h2)

/-- **C136** (as above, without signals). In an open world, how many lines there are at any moment: as many as the stops told so far have, and one for
the first process. -/
theorem C136_count_partial (K : Kern) (N : World) (C : StraceCfg) (F : LineView) (X : MainTexts) (root : Nat) (thread : Nat → Bool)
    (fork exec clone attached : Bool) (fuel : Nat) (hf : 1 < fuel)
    (hK : Kept (straceMain K fuel C root attached (treeState fork exec clone)).2.log N (C.wish exec (treeOptions fork exec clone)) root thread attached)
    (pids : List Nat) (hn : pids.Nodup) (hp : ∀ p ∈ reported (straceMain K fuel C root attached (treeState fork exec clone)).2.log, p ∈ pids)
    (hq : ∀ p ∈ pids, Quiet (C.wish exec (treeOptions fork exec clone)) (thread p)
      (stopsMade N p (straceMain K fuel C root attached (treeState fork exec clone)).2.log)) :
    (straceMainOut K fuel C F X root attached ⟨treeState fork exec clone, []⟩).2.out.length =
      1 + (pids.map fun p => procCount (C.wish exec (treeOptions fork exec clone)) root p (thread p)
        (stopsMade N p (straceMain K fuel C root attached (treeState fork exec clone)).2.log)).sum := by
  obtain ⟨r, t, first, blocks, h1, _, _, h2⟩ := C136_lines_partial K N C F X root thread fork exec clone attached fuel hf hK []
  obtain ⟨s1, s2⟩ := C130_same K fuel C F X root attached ⟨treeState fork exec clone, []⟩
  rw [h1] at s2
  have s2 : t = (straceMain K fuel C root attached (treeState fork exec clone)).2 := s2
  rw [← s2] at hq hp ⊢
  rw [h1]
  show (blocks.flatMap Block.lines).length + 1 = _
  rw [Nat.add_comm, List.length_flatMap, sum_by_pid hn fun b hb => hp _ (h2.order ▸ List.mem_map_of_mem hb)]
  congr 2
  refine List.map_congr_left fun p hp => ?_
  obtain ⟨_, h3⟩ := h2.each p
  rw [← procBlocks_count h3 (hq p hp), List.length_flatMap]

/-! ## a world without end -/

/-- The world of C135, watched for as long as one likes. -/
example (enter fork clone attached : Bool) (fuel : Nat) (hf : 1 < fuel) (F : LineView) (X : MainTexts) (out : List Str) :=
  C136_lines_partial (teemKern fun _ => false) (teem fun _ => false) (followCfg enter) F X 1 (fun _ => false) fork true clone attached fuel hf
    (teem_kept _ (followCfg enter) fork clone attached fuel) out

/-- The texts for a program without arguments. -/
def loneTexts : MainTexts := ⟨"prog".toList, "['prog']".toList, [], fun _ => [], fun _ => []⟩

example : (straceMainOut (teemKern fun _ => false) 8 (followCfg false) { sampleView with showIp := false } loneTexts 1 true
    ⟨treeState true true false, []⟩).2.out = ["execve(prog, ['prog'], [/* 40 vars */]) = 1".toList, "*** New process 8 ***".toList,
      "*** New process 20 ***".toList, "[8] read13                                   = 25".toList, "*** New process 32 ***".toList,
      "*** New process 44 ***".toList] := by
  decide +kernel

/-- With the registers and the memory of C132. -/
example (enter fork clone attached : Bool) (fuel : Nat) (hf : 1 < fuel) (gone : MemSt) (base : LineView) (X : MainTexts) (out : List Str) :=
  C136_text_partial (exHost enter) conventionX86_64 (by simp [textCpus, exHost]) exKernel64 3 (exHost_over enter) exWorld gone base (teemKern fun _ => false) (teem fun _ => false) (followCfg enter) X 1 (fun _ => false) fork true clone attached fuel hf
    (teem_kept _ (followCfg enter) fork clone attached fuel) out

-- process 8 makes call 13 at its second stop; at the third one it tells of a new process, and at the fourth the call ends
example : (fun stops : List Report => stops[3]? = some (.signal 133, 25) ∧
      (history ((followCfg false).wish true (treeOptions true true false)) false (stops.take 3)).1 = .inside 13)
    (stopsMade (teem fun _ => false) 8 (teemRun (fun _ => false) (followCfg false) true false true 8)) ∧
    ((followCfg false).wish true (treeOptions true true false)).view.shown 13 = true ∧
    Known (exHost false) conventionX86_64 (exWorld 13) "rt_sigaction" "long" [("int", "signum"), ("const struct sigaction *", "act"),
      ("struct sigaction *", "oldact"), ("size_t", "")] := by
  refine ⟨by decide +kernel, by decide +kernel, ?_⟩
  exact ⟨⟨_, rfl, by decide +kernel⟩, by decide +kernel, .inl (by decide)⟩

-- the same call has begun at its second stop; with `--enter` it has a line there
example (fork clone attached : Bool) (fuel : Nat) (hf : 1 < fuel) (gone : MemSt) (base : LineView) (X : MainTexts) (out : List Str) :=
  C136_cut_partial (exHost true) conventionX86_64 (by simp [textCpus, exHost]) exKernel64 3 (exHost_over true) exWorld gone base (teemKern fun _ => false) (teem fun _ => false) (followCfg true) X 1 (fun _ => false) fork true clone attached fuel hf
    (teem_kept _ (followCfg true) fork clone attached fuel) rfl out

example : (fun stops : List Report => stops[1]? = some (.signal 133, 13) ∧
      (history ((followCfg true).wish true (treeOptions true true false)) false (stops.take 1)).1 = .outside)
    (stopsMade (teem fun _ => false) 8 (teemRun (fun _ => false) (followCfg true) true false true 8)) := by
  decide +kernel

/-- Six lines after five stops with lines. -/
example : (straceMainOut (teemKern fun _ => false) 8 (followCfg false) sampleView loneTexts 1 true ⟨treeState true true false, []⟩).2.out.length = 6 := by
  rw [C136_count_partial (teemKern fun _ => false) (teem fun _ => false) (followCfg false) sampleView loneTexts 1 (fun _ => false) true true false true 8
    (by decide) (teem_kept _ (followCfg false) true false true 8) [1, 8, 20, 32, 44] (by decide) (by decide +kernel) (quiet_all (by decide +kernel))]
  decide +kernel

end PT
