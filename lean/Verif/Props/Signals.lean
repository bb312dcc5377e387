import Verif.Lemmas.Signals

/-!
C49 — signal names and numbers round-trip.
-/

namespace PT

variable {dir : List (Str × Nat)}

/-- The names of the Linux table, as the statements below are instantiated. -/
example : (linuxSignalDir.map Prod.fst).Nodup ∧ linuxSignames.length = 33 ∧
    signalName linuxSignames 6 = "SIGABRT".toList ∧ signalName linuxSignames 29 = "SIGPOLL".toList ∧
    signalName linuxSignames 2 = "SIGINT".toList ∧ signalName linuxSignames 404 = "signal<404>".toList := by
  decide +kernel

/-- C49: `signalName` of a number that has a signal name in the platform's table is one of the names
of this signal, and it is the first preferred one whenever one of its names is preferred. -/
theorem C49_known_name {name : Str} {n : Nat} (h : Spec.IsSignal dir name n) :
    Spec.IsSignal dir (signalName (getSignalNames dir) n) n ∧
    (∀ p ∈ Spec.preferred, Spec.IsSignal dir p n →
      signalName (getSignalNames dir) n ∈ Spec.preferred) ∧
    (∀ pre p post, Spec.preferred = pre ++ p :: post → (∀ q ∈ pre, ¬ Spec.IsSignal dir q n) →
      Spec.IsSignal dir p n → signalName (getSignalNames dir) n = p) := by
  have hm : name ∈ namesOf dir n := mem_namesOf.2 ⟨h.1, (startsSIG_iff _).2 h.2.1⟩
  have hne : namesOf dir n ≠ [] := List.ne_nil_of_mem hm
  have hent : (n, pickName (namesOf dir n)) ∈ getSignalNames dir :=
    mem_getSignalNames.2 ⟨h.2.2, hne, rfl⟩
  have hsn : signalName (getSignalNames dir) n = pickName (namesOf dir n) := by
    unfold signalName
    rw [dictGet_of_mem (getSignalNames_nodup dir) hent]
  have hiff : ∀ q, Spec.IsSignal dir q n ↔ q ∈ namesOf dir n := by
    intro q
    rw [mem_namesOf, startsSIG_iff]
    exact ⟨fun g => ⟨g.1, g.2.1⟩, fun g => ⟨g.1, g.2, h.2.2⟩⟩
  have hpref : Spec.preferred = preferredNames := by decide
  rw [hsn]
  refine ⟨(hiff _).2 (pickName_mem hne), ?_, ?_⟩
  · intro p hp hps
    rw [hpref] at hp ⊢
    unfold pickName
    cases hf : preferredNames.find? (fun p => (namesOf dir n).contains p) with
    | none =>
      rw [List.find?_eq_none] at hf
      exact absurd (List.contains_iff_mem.2 ((hiff p).1 hps)) (hf p hp)
    | some q => exact List.mem_of_find?_eq_some hf
  · intro pre p post hsplit hpre hp
    unfold pickName
    rw [← hpref, hsplit, List.find?_append, List.find?_eq_none.2, Option.none_or, List.find?_cons_of_pos]
    · exact List.contains_iff_mem.2 ((hiff p).1 hp)
    · intro q hq hc
      exact hpre q hq ((hiff q).2 (List.contains_iff_mem.1 hc))

example : Spec.IsSignal linuxSignalDir "SIGIOT".toList 6 := by
  refine ⟨by decide, ⟨"IOT".toList, by decide⟩, by decide⟩

/-- C49: `signalName` never fails: a number without a name is shown as `signal<number>`, which
reads back as this number and is not the name of any known signal. -/
theorem C49_unknown_name {n : Nat} (h : ∀ name, ¬ Spec.IsSignal dir name n) :
    ∃ d, signalName (getSignalNames dir) n = "signal<".toList ++ d ++ ">".toList ∧
      Spec.decNumber d = some n ∧
      ∀ name m, Spec.IsSignal dir name m → signalName (getSignalNames dir) n ≠ name := by
  have hsn : signalName (getSignalNames dir) n = "signal<".toList ++ pyDec n ++ ">".toList := by
    unfold signalName
    cases hg : dictGet (getSignalNames dir) n with
    | none => rfl
    | some name =>
      have hm := mem_getSignalNames.1 (dictGet_some hg)
      have := mem_namesOf.1 (pickName_mem hm.2.1)
      exact absurd ⟨this.1, (startsSIG_iff _).1 this.2, hm.1⟩ (h _)
  refine ⟨pyDec n, hsn, decNumber_pyDec n, ?_⟩
  intro name m hname e
  obtain ⟨rest, hr⟩ := hname.2.1
  rw [hsn, hr] at e
  have h2 := congrArg (List.take 2) e
  revert h2
  show ¬ _ = _
  simp [List.take]

example : ∀ name, ¬ Spec.IsSignal linuxSignalDir name 33 := by
  intro name h
  have : ∀ e ∈ linuxSignalDir, e.2 ≠ 33 := by decide
  exact this _ h.1 rfl

/-- C49: different numbers with a known name have different names. -/
theorem C49_injective (hnames : (dir.map Prod.fst).Nodup) {a b : Str} {m n : Nat}
    (ha : Spec.IsSignal dir a m) (hb : Spec.IsSignal dir b n)
    (h : signalName (getSignalNames dir) m = signalName (getSignalNames dir) n) : m = n := by
  have h1 := (C49_known_name ha).1.1
  have h2 := (C49_known_name hb).1.1
  rw [h] at h1
  have := nodup_map_inj hnames h1 h2 rfl
  exact (Prod.mk.inj this).2

example := C49_injective (dir := linuxSignalDir) (a := "SIGIOT".toList) (b := "SIGABRT".toList) (m := 6) (n := 6)
  (by decide +kernel) ⟨by decide, ⟨"IOT".toList, by decide⟩, by decide⟩ ⟨by decide, ⟨"ABRT".toList, by decide⟩, by decide⟩ rfl

/-- Entries of gdb's `SIGNALS`. -/
theorem mem_gdbSignals (hnames : (dir.map Prod.fst).Nodup) {name : Str} {n : Nat} :
    (name, n) ∈ gdbSignals (getSignalNames dir) ↔ (n, name) ∈ getSignalNames dir := by
  have hinj : ((getSignalNames dir).map Prod.snd).Nodup := by
    have hk := getSignalNames_nodup dir
    rw [List.Nodup, List.pairwise_map] at hk ⊢
    refine hk.imp_of_mem ?_
    rintro ⟨m, a⟩ ⟨n, b⟩ ha hb hne rfl
    have h1 := mem_getSignalNames.1 ha
    have h2 := mem_getSignalNames.1 hb
    have p1 := (mem_namesOf.1 (pickName_mem h1.2.1)).1
    have p2 := (mem_namesOf.1 (pickName_mem h2.2.1)).1
    rw [← h1.2.2] at p1
    rw [← h2.2.2] at p2
    have := nodup_map_inj hnames p1 p2 rfl
    exact hne (Prod.mk.inj this).2
  unfold gdbSignals
  rw [inverseDict_spec _ _ hinj (by simp)]
  simp

theorem gdbSignals_nodup (dir : List (Str × Nat)) :
    ((gdbSignals (getSignalNames dir)).map Prod.fst).Nodup := by
  have : ∀ (data : List (Nat × Str)) (acc : List (Str × Nat)), (acc.map Prod.fst).Nodup →
      ((inverseDict data acc).map Prod.fst).Nodup := by
    intro data
    induction data with
    | nil => intro acc h; exact h
    | cons e data ih => intro acc h; exact ih _ (dictSet_nodup h)
  exact this _ _ (by simp)

/-- C49: gdb's `parseSignum` maps the name printed for a known signal back to its number. -/
theorem C49_parse_name (hnames : (dir.map Prod.fst).Nodup) (parseInteger : Str → Except Exc Int)
    {name : Str} {n : Nat} (h : Spec.IsSignal dir name n) :
    parseSignum (gdbSignals (getSignalNames dir)) parseInteger (signalName (getSignalNames dir) n) =
      .ok n := by
  have hk := (C49_known_name h).1
  have hent : (n, signalName (getSignalNames dir) n) ∈ getSignalNames dir := by
    have hm : name ∈ namesOf dir n := mem_namesOf.2 ⟨h.1, (startsSIG_iff _).2 h.2.1⟩
    have hent : (n, pickName (namesOf dir n)) ∈ getSignalNames dir :=
      mem_getSignalNames.2 ⟨h.2.2, List.ne_nil_of_mem hm, rfl⟩
    unfold signalName
    rw [dictGet_of_mem (getSignalNames_nodup dir) hent]
    exact hent
  unfold parseSignum
  rw [dictGet_of_mem (gdbSignals_nodup dir) ((mem_gdbSignals hnames).2 hent)]

example := C49_parse_name (dir := linuxSignalDir) (by decide +kernel) (fun _ => .error .value)
  (name := "SIGIOT".toList) (n := 6) ⟨by decide, ⟨"IOT".toList, by decide⟩, by decide⟩

/-- C49: the same without the `SIG` prefix, on every platform where no signal is called `SIG` plus
the full name of another one (see the example below: Linux qualifies). -/
theorem C49_parse_short (hnames : (dir.map Prod.fst).Nodup) (parseInteger : Str → Except Exc Int)
    (hshort : ∀ a b m n, Spec.IsSignal dir a m → Spec.IsSignal dir b n → a ≠ "SIG".toList ++ b)
    {name short : Str} {n : Nat} (h : Spec.IsSignal dir name n)
    (hs : signalName (getSignalNames dir) n = "SIG".toList ++ short) :
    parseSignum (gdbSignals (getSignalNames dir)) parseInteger short = .ok n := by
  have hk := (C49_known_name h).1
  have hfull := C49_parse_name hnames parseInteger h
  unfold parseSignum at hfull ⊢
  cases hg : dictGet (gdbSignals (getSignalNames dir)) short with
  | some m =>
    exfalso
    have hm := mem_getSignalNames.1 ((mem_gdbSignals hnames).1 (dictGet_some hg))
    have := mem_namesOf.1 (pickName_mem hm.2.1)
    rw [← hm.2.2] at this
    exact hshort _ _ _ _ hk ⟨this.1, (startsSIG_iff _).1 this.2, hm.1⟩ hs
  | none =>
    rw [← hs]
    cases hg2 : dictGet (gdbSignals (getSignalNames dir)) (signalName (getSignalNames dir) n) with
    | some m =>
      rw [hg2] at hfull
      exact hfull
    | none =>
      have hent : (n, signalName (getSignalNames dir) n) ∈ getSignalNames dir := by
        have hm : name ∈ namesOf dir n := mem_namesOf.2 ⟨h.1, (startsSIG_iff _).2 h.2.1⟩
        have hent : (n, pickName (namesOf dir n)) ∈ getSignalNames dir :=
          mem_getSignalNames.2 ⟨h.2.2, List.ne_nil_of_mem hm, rfl⟩
        unfold signalName
        rw [dictGet_of_mem (getSignalNames_nodup dir) hent]
        exact hent
      exact absurd ((mem_gdbSignals hnames).2 hent) (dictGet_none.1 hg2 n)

example : parseSignum (gdbSignals (getSignalNames linuxSignalDir)) (fun _ => .error .value) "ABRT".toList = .ok 6 :=
  C49_parse_short (dir := linuxSignalDir) (by decide +kernel) (fun _ => .error .value)
    (fun a b m n ha hb => by
      have h : ∀ a ∈ linuxSignalDir, ∀ b ∈ linuxSignalDir, a.1 ≠ "SIG".toList ++ b.1 := by decide +kernel
      exact h _ ha.1 _ hb.1)
    (name := "SIGIOT".toList) (n := 6) ⟨by decide, ⟨"IOT".toList, by decide⟩, by decide⟩ (by decide +kernel)

/-- C49: a text that is neither a printed signal name nor one without `SIG` is read as an integer. -/
theorem C49_parse_other (hnames : (dir.map Prod.fst).Nodup) (parseInteger : Str → Except Exc Int)
    {command : Str} (h : ∀ name n, Spec.IsSignal dir name n → command ≠ name ∧ "SIG".toList ++ command ≠ name) :
    parseSignum (gdbSignals (getSignalNames dir)) parseInteger command = parseInteger command := by
  have hno : ∀ c : Str, (∀ name n, Spec.IsSignal dir name n → c ≠ name) →
      dictGet (gdbSignals (getSignalNames dir)) c = none := by
    intro c hc
    rw [dictGet_none]
    intro v hv
    have hm := mem_getSignalNames.1 ((mem_gdbSignals hnames).1 hv)
    have := mem_namesOf.1 (pickName_mem hm.2.1)
    rw [← hm.2.2] at this
    exact hc _ _ ⟨this.1, (startsSIG_iff _).1 this.2, hm.1⟩ rfl
  unfold parseSignum
  rw [hno _ (fun name n hn => (h name n hn).1), hno _ (fun name n hn => (h name n hn).2)]
  cases parseInteger command with
  | ok v => rfl
  | error e => cases e <;> rfl

/-- The Linux table meets the hypotheses of the theorems above. -/
example : (linuxSignalDir.map Prod.fst).Nodup ∧
    (∀ a ∈ linuxSignalDir, ∀ b ∈ linuxSignalDir, a.1 ≠ "SIG".toList ++ b.1) ∧
    parseSignum (gdbSignals linuxSignames) (fun _ => .error .value) "INT".toList = .ok 2 ∧
    parseSignum (gdbSignals linuxSignames) (fun _ => .error .value) "SIGCHLD".toList = .ok 17 ∧
    parseSignum (gdbSignals linuxSignames) (fun _ => .error .value) "CLD".toList = .error .value := by
  decide +kernel

end PT
