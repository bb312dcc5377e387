import Verif.Model.Report
import Verif.Spec.Report
import Verif.Props.Fault
import Verif.Props.Status
import Verif.Props.GdbCmd
import Verif.Lemmas.Xray

/-! Property C106: the report about a signal. -/

namespace PT
open Spec

theorem formatAddressInt_text (a : Arch) (n : Int) : IntText n (formatAddressInt a n) := by
  cases n with
  | ofNat n => exact ⟨fun _ => formatAddress_text a n, fun h => absurd h (by simp)⟩
  | negSucc n =>
    refine ⟨fun h => absurd h (by simp), fun _ => ⟨pyHexPad (if a.is64 then 15 else 7) (n + 1), ?_, rfl⟩⟩
    rw [hexNumber_pyHexPad]
    rfl

section
variable {σ : Type} (a : Arch) (signames : List (Nat × Str)) (v : FaultEnv) (P : FaultProc σ) (pid signum : Nat) (old : Option Reason)

theorem say_eq (t : Str) (d : Con σ) : say t d = (.ok (), { d with out := d.out ++ [t] }) := rfl

/-- C106. The report begins and ends with a bar; between are the number of the process, the name of the signal and the lines about the reason,
if one was found: message, user, instruction, mappings and registers. -/
theorem C106_report (c : Con σ) {r : Option Reason} {s : σ} (h : analyze v P signum old c.inner = (.ok r, s)) :
    ∃ num body, decNumber num = some pid ∧
      signalDisplay a signames v P pid signum old c =
        (.ok r, ⟨s, c.out ++ [List.replicate 60 '-', "PID: ".toList ++ num, "Signal: ".toList ++ signalName signames signum] ++ body ++ [List.replicate 60 '-']⟩) ∧
      (r = none → body = []) ∧
      ∀ x, r = some x → ∃ extra instr maps regs, body = [reasonText a signames x] ++ extra ++ instr ++ maps ++ regs ∧
        (∀ p st uid, x.note = .child p st uid → ∃ u, decNumber u = some uid ∧ extra = ["Signal sent by user ".toList ++ u]) ∧
        ((∀ p st uid, x.note ≠ .child p st uid) → extra = []) ∧
        instr = (x.instr.map fun i => "- instruction: ".toList ++ i).toList ∧
        List.Forall₂ (fun n line => PlaceLine n.address (x.size.getD 0) n.mapping line) x.mappings maps ∧
        List.Forall₂ (fun p line => RegisterLine p.1 p.2 line) x.registers regs := by
  have run : signalDisplay a signames v P pid signum old c =
        (.ok r, ⟨s, c.out ++ [List.replicate 60 '-', "PID: ".toList ++ pyDec pid, "Signal: ".toList ++ signalName signames signum] ++
          r.elim [] (reasonLines a signames) ++ [List.replicate 60 '-']⟩) := by
    unfold signalDisplay
    rw [Py.run_bind_ok (inside_eq h), Py.run_bind_ok (say_eq _ _), Py.run_bind_ok (say_eq _ _), Py.run_bind_ok (say_eq _ _),
      Py.run_bind_ok (sayAll_eq _ _), Py.run_bind_ok (say_eq _ _)]
    simp [Py.pure, bar]
  cases r with
  | none => exact ⟨pyDec pid, [], decNumber_pyDec pid, run, fun _ => rfl, fun x hx => by cases hx⟩
  | some r =>
    refine ⟨pyDec pid, reasonLines a signames r, decNumber_pyDec pid, run, (fun hx => by cases hx), fun x hx => ?_⟩
    cases hx
    refine ⟨_, _, _, _, rfl, ?_, ?_, ?_, ?_, ?_⟩
    · intro p st uid hn
      refine ⟨pyDec uid, decNumber_pyDec uid, ?_⟩
      unfold displayExtra
      rw [hn]
    · intro hn
      unfold displayExtra
      cases hr : r.note with
      | child p st uid => exact absurd hr (hn p st uid)
      | _ => rfl
    · cases r.instr <;> rfl
    · refine forall₂_map_mem _ fun n _ => ?_
      refine ⟨formatAddressInt a n.address ++ (if 1 < r.size.getD 0 then "..".toList ++ formatAddressInt a (n.address + (r.size.getD 0) - 1) else []),
        (match n.mapping with
          | some m => " is part of ".toList ++ mappingText a m
          | none => " is not mapped in memory".toList), ?_, ?_, ?_, ?_, ?_⟩
      · unfold mapNoteText
        cases n.mapping <;> simp only [List.append_assoc]
      · intro hs
        rw [if_neg (by omega), List.append_nil]
        exact formatAddressInt_text a _
      · intro hs
        rw [if_pos hs]
        refine ⟨_, _, formatAddressInt_text a _, formatAddressInt_text a _, ?_⟩
        rw [List.append_assoc, show n.address + ((r.size.getD 0 - 1 : Nat) : Int) = n.address + (r.size.getD 0) - 1 by omega]
      · intro hm; rw [hm]
      · intro m hm
        rw [hm]
        exact ⟨_, mappingText_text a m, rfl⟩
    · refine forall₂_map_mem _ fun p _ => ⟨_, hexLiteral_formatWordHex a p.2, ?_⟩
      simp

/-- C106. If the analysis fails, nothing is shown. -/
theorem C106_silent (c : Con σ) {e : Exc} {s : σ} (h : analyze v P signum old c.inner = (.error e, s)) :
    signalDisplay a signames v P pid signum old c = (.error e, ⟨s, c.out⟩) := by
  unfold signalDisplay
  rw [Py.run_bind_error (inside_eq h)]

end

section
variable (a : Arch) (signames : List (Nat × Str))

/-- An access, not one of the other reasons. -/
def FaultKind.isAccess : FaultKind → Prop
  | .access | .read | .write => True
  | _ => False

theorem accessTexts_words (kind : FaultKind) :
    (accessTexts kind).2.1 = (accessWords kind).1 ∧ (accessTexts kind).2.2 = (accessWords kind).1 ++ (accessWords kind).2 := by
  cases kind <;> exact ⟨rfl, rfl⟩

/-- The address of a reason that has at most one. -/
def FaultAddr.toOption : FaultAddr → Option Int
  | .one x => some x
  | _ => Option.none

/-- C106. The message about an access tells what it was, where, and how many bytes. -/
theorem C106_access (r : Reason) (hk : r.kind.isAccess) (hm : ∀ l, r.address ≠ .many l) (hs : r.size ≠ some 0) :
    AccessMessage r.kind r.address.toOption r.size (reasonText a signames r) := by
  have htext : reasonText a signames r = accessMessage a r.kind r.address r.size := by
    unfold reasonText
    cases h : r.kind <;> rw [h] at hk <;> first | rfl | exact absurd hk id
  rw [htext]
  refine ⟨(match r.address with
    | .one x => (accessWords r.kind).2 ++ formatAddressInt a x
    | _ => []), (match r.size with
    | some n => " (size=".toList ++ pyDec n ++ " bytes)".toList
    | none => []), ?_, ?_, ?_, ?_, ?_⟩
  · unfold accessMessage
    obtain ⟨h1, h2⟩ := accessTexts_words r.kind
    simp only [h1, h2]
    cases hr : r.address with
    | many l => exact absurd hr (hm l)
    | none =>
      cases hz : r.size with
      | none => simp
      | some n =>
        have : n ≠ 0 := fun h => hs (by rw [hz, h])
        simp [this]
    | one x =>
      cases hz : r.size with
      | none => simp
      | some n =>
        have : n ≠ 0 := fun h => hs (by rw [hz, h])
        simp [this]
  · intro h
    cases hr : r.address with
    | one x => rw [hr] at h; cases h
    | _ => rfl
  · intro x h
    cases hr : r.address with
    | one y =>
      rw [hr] at h
      cases h
      exact ⟨_, formatAddressInt_text a x, rfl⟩
    | none => rw [hr] at h; cases h
    | many l => rw [hr] at h; cases h
  · intro h; rw [h]
  · intro n h
    rw [h]
    exact ⟨_, decNumber_pyDec n, rfl⟩

/-- C106. The message about an access to one of several addresses names all of them, in order. -/
theorem C106_several (r : Reason) (hk : r.kind.isAccess) (l : List Int) (hl : r.address = .many l) (hs : r.size = none) :
    ∃ texts : List Str, texts.length = l.length ∧ (∀ (i : Nat) (x : Int) (t : Str), l[i]? = some x → texts[i]? = some t → IntText x t) ∧
      reasonText a signames r = (accessWords r.kind).1 ++ (accessWords r.kind).2 ++ (" or ".toList).intercalate texts := by
  refine ⟨l.map (formatAddressInt a), by simp, fun i x t hx ht => ?_, ?_⟩
  · rw [List.getElem?_map, hx] at ht
    injection ht with ht
    rw [← ht]
    exact formatAddressInt_text a x
  · have htext : reasonText a signames r = accessMessage a r.kind r.address r.size := by
      unfold reasonText
      cases h : r.kind <;> rw [h] at hk <;> first | rfl | exact absurd hk id
    rw [htext]
    unfold accessMessage
    rw [hl, hs]
    simp [(accessTexts_words r.kind).2]

/-- C106. The message about code that cannot be executed names its address. -/
theorem C106_instruction (r : Reason) (hk : r.kind = .instruction) {x : Int} (hx : r.address = .one x) :
    ∃ t, IntText x t ∧ reasonText a signames r = "UNABLE TO EXECUTE CODE AT ".toList ++ t ++ " (SEGMENTATION FAULT)".toList := by
  refine ⟨_, formatAddressInt_text a x, ?_⟩
  unfold reasonText
  rw [hk]
  simp only [hx]

/-- C106 is false for stack overflows: the message says that the stack pointer is in the mapping of the stack, and it never is. -/
theorem C106_overflow_refuted {σ : Type} {P : FaultProc σ} {w : FaultView} {v : FaultEnv} (h : Answers P w) (hl : v.linux = true)
    (hip : w.ip ≠ .ok (w.siginfo.getD 0)) (stack : Mapping)
    (hs : w.maps.find? (fun m => m.pathname = some "[stack]".toList) = some stack) (sp : Nat) (hsp : w.sp = .ok sp)
    (ho : sp < stack.start ∨ stack.stop < sp) (hop : HasOperands (w.seen v)) (old : Option Reason) (s : σ) :
    ∃ r t, memoryFault v P old s = (.ok r, s) ∧ reasonText a signames r = "STACK OVERFLOW! Stack pointer is in ".toList ++ t ∧ MappingText stack t ∧
      ¬ InMapping stack sp := by
  obtain ⟨r, h1, h2, _, _, _, h3, _⟩ := C69_stack_partial h hl hip stack hs sp hsp ho hop old s
  refine ⟨r, mappingText a stack, h1, ?_, mappingText_text a stack, ?_⟩
  · unfold reasonText
    rw [h2]
    simp only [h3]
  · unfold InMapping
    omega

/-! ### Different reasons have different messages -/

/-- Reasons as the analysis makes them. -/
def Reason.Made (r : Reason) : Prop :=
  (r.kind = .stackOverflow → ∃ m, r.note = .stack m) ∧ (r.kind = .instruction → ∃ x, r.address = .one x) ∧
  (r.kind.isAccess → (∀ l, r.address ≠ .many l) ∧ r.size ≠ some 0)

def kindKey : FaultKind → Str
  | .divisionByZero => "Division ".toList
  | .abort => "Program r".toList
  | .stackOverflow => "STACK OVE".toList
  | .access => "Invalid m".toList
  | .read => "Invalid r".toList
  | .write => "Invalid w".toList
  | .instruction => "UNABLE TO".toList
  | .childExit => "Child pro".toList

theorem kindKey_inj : ∀ k k' : FaultKind, kindKey k = kindKey k' → k = k' := by
  intro k k'
  cases k <;> cases k' <;> first | exact fun _ => rfl | exact fun h => absurd h (by decide)

theorem formatProcessStatus_title (status : Int) (title : Str) : ∃ t, formatProcessStatus signames status title = title ++ t := by
  unfold formatProcessStatus
  simp only []
  have fin : ∀ x y : Str, (∃ t, x = title ++ t) → ∃ t, (if wCoreDump status then x ++ y else x) = title ++ t := by
    rintro x y ⟨t, rfl⟩
    split
    · exact ⟨t ++ y, by rw [List.append_assoc]⟩
    · exact ⟨t, rfl⟩
  refine fin _ _ ?_
  split
  · exact ⟨_, by rw [List.append_assoc]⟩
  · split
    · exact ⟨_, by rw [List.append_assoc]⟩
    · split
      · exact ⟨_, by rw [List.append_assoc]⟩
      · exact ⟨_, rfl⟩

theorem take_append9 {p : Str} (t : Str) (h : 9 ≤ p.length) : (p ++ t).take 9 = p.take 9 := List.take_append_of_le_length h

theorem childExitText_key (i : Option (Nat × Int)) : (childExitText signames i).take 9 = kindKey .childExit := by
  cases i with
  | none => rfl
  | some i =>
    obtain ⟨pid, status⟩ := i
    obtain ⟨t, ht⟩ := formatProcessStatus_title signames status ("Child process ".toList ++ pyDec pid)
    have h : childExitText signames (some (pid, status)) = formatProcessStatus signames status ("Child process ".toList ++ pyDec pid) := rfl
    rw [h, ht, List.append_assoc]
    exact (take_append9 _ (by decide)).trans (by decide)

theorem reasonText_key {r : Reason} (h : r.Made) : (reasonText a signames r).take 9 = kindKey r.kind := by
  have acc : ∀ k, k = FaultKind.access ∨ k = FaultKind.read ∨ k = FaultKind.write → (accessMessage a k r.address r.size).take 9 = kindKey k := by
    intro k hk
    unfold accessMessage
    simp only []
    rcases hk with rfl | rfl | rfl <;> cases r.address <;> simp only [] <;> split <;>
      (try simp only [List.append_assoc]) <;> first | rfl | exact (take_append9 _ (by decide)).trans (by decide)
  unfold reasonText
  cases hk : r.kind with
  | divisionByZero => rfl
  | abort => rfl
  | stackOverflow =>
    obtain ⟨m, hm⟩ := h.1 hk
    simp only [hm]
    exact (take_append9 _ (by decide)).trans (by decide)
  | access => exact acc _ (.inl rfl)
  | read => exact acc _ (.inr (.inl rfl))
  | write => exact acc _ (.inr (.inr rfl))
  | instruction =>
    obtain ⟨x, hx⟩ := h.2.1 hk
    simp only [hx, List.append_assoc]
    exact (take_append9 _ (by decide)).trans (by decide)
  | childExit =>
    cases r.note <;> exact childExitText_key signames _

theorem formatAddressInt_chars (x : Int) : formatAddressInt a x ≠ [] ∧ (∀ c ∈ formatAddressInt a x, c ≠ ' ') ∧ ('-' ∈ formatAddressInt a x ↔ x < 0) := by
  have hex : ∀ w n (c : Char), c ∈ pyHexPad w n → c ≠ ' ' ∧ c ≠ '-' := by
    intro w n c hc
    have h := (hexNumber_some (hexNumber_pyHexPad w n)).2.1 c hc
    constructor
    · rintro rfl; exact absurd h (by decide)
    · rintro rfl; exact absurd h (by decide)
  cases x with
  | negSucc n =>
    refine ⟨by simp [formatAddressInt], fun c hc => ?_, by simp [formatAddressInt]⟩
    simp only [formatAddressInt, List.mem_cons] at hc
    rcases hc with rfl | rfl | rfl | hc
    · decide
    · decide
    · decide
    · exact (hex _ _ c hc).1
  | ofNat n =>
    have word : ∃ w, formatWordHex a n = '0' :: 'x' :: pyHexPad w n := by
      unfold formatWordHex formatUintHex32 formatUintHex64
      split <;> exact ⟨_, rfl⟩
    obtain ⟨w, hw⟩ := word
    have all : ∀ c ∈ formatAddress a n, c ≠ ' ' ∧ c ≠ '-' := by
      unfold formatAddress
      split
      · rw [hw]
        intro c hc
        rcases List.mem_cons.1 hc with rfl | hc
        · decide
        · rcases List.mem_cons.1 hc with rfl | hc
          · decide
          · exact hex _ _ c hc
      · decide
    refine ⟨?_, fun c hc => (all c hc).1, ?_⟩
    · show formatAddress a n ≠ []
      unfold formatAddress
      split
      · rw [hw]; exact List.cons_ne_nil _ _
      · decide
    · constructor
      · intro hc; exact absurd rfl (all '-' hc).2
      · intro hc; exact absurd hc (by simp)

theorem formatAddressInt_inj {x y : Int} (h : formatAddressInt a x = formatAddressInt a y) : x = y := by
  have hx := (formatAddressInt_chars a x).2.2
  have hy := (formatAddressInt_chars a y).2.2
  rw [h] at hx
  have hxy : x < 0 ↔ y < 0 := hx.symm.trans hy
  cases x with
  | ofNat n =>
    cases y with
    | ofNat m => exact congrArg Int.ofNat (Props.C03_injective a n m h)
    | negSucc m => exact absurd (hxy.2 (by simp)) (by simp)
  | negSucc n =>
    cases y with
    | ofNat m => exact absurd (hxy.1 (by simp)) (by simp)
    | negSucc m =>
      simp only [formatAddressInt, List.cons.injEq, true_and] at h
      have h1 := hexNumber_pyHexPad (if a.is64 then 15 else 7) (n + 1)
      rw [h, hexNumber_pyHexPad] at h1
      have h1 := Option.some.inj h1
      have : n = m := by omega
      rw [this]

theorem span_space {u u' b b' : Str} (hu : ∀ c ∈ u, c ≠ ' ') (hu' : ∀ c ∈ u', c ≠ ' ') (hb : ∀ c, b.head? = some c → c = ' ')
    (hb' : ∀ c, b'.head? = some c → c = ' ') (h : u ++ b = u' ++ b') : u = u' ∧ b = b' := by
  induction u generalizing u' with
  | nil =>
    cases u' with
    | nil => exact ⟨rfl, h⟩
    | cons c cs =>
      have : c = ' ' := hb c (by rw [show b = c :: (cs ++ b') from h]; rfl)
      exact absurd this (hu' c (List.mem_cons_self ..))
  | cons c cs ih =>
    cases u' with
    | nil =>
      have : c = ' ' := hb' c (by rw [show b' = c :: (cs ++ b) from h.symm]; rfl)
      exact absurd this (hu c (List.mem_cons_self ..))
    | cons d ds =>
      injection h with h1 h2
      obtain ⟨h3, h4⟩ := ih (fun x hx => hu x (List.mem_cons_of_mem _ hx)) (fun x hx => hu' x (List.mem_cons_of_mem _ hx)) h2
      exact ⟨by rw [h1, h3], h4⟩

/-- The end of a message. -/
def sizeText (size : Option Nat) : Str := size.elim [] fun n => " (size=".toList ++ pyDec n ++ " bytes)".toList

/-- The place of a message. -/
def placeText (kind : FaultKind) (x : Option Int) : Str := x.elim [] fun x => (accessWords kind).2 ++ formatAddressInt a x

theorem accessMessage_parts (kind : FaultKind) (x : FaultAddr) (size : Option Nat) (hm : ∀ l, x ≠ .many l) (hs : size ≠ some 0) :
    accessMessage a kind x size = (accessWords kind).1 ++ (placeText a kind x.toOption ++ sizeText size) := by
  unfold accessMessage
  obtain ⟨h1, h2⟩ := accessTexts_words kind
  simp only [h1, h2]
  cases x with
  | many l => exact absurd rfl (hm l)
  | none =>
    cases size with
    | none => simp [placeText, sizeText, FaultAddr.toOption]
    | some n =>
      have : n ≠ 0 := fun h => hs (by rw [h])
      simp [this, placeText, sizeText, FaultAddr.toOption]
  | one x =>
    cases size with
    | none => simp [placeText, sizeText, FaultAddr.toOption]
    | some n =>
      have : n ≠ 0 := fun h => hs (by rw [h])
      simp [this, placeText, sizeText, FaultAddr.toOption]

theorem sizeText_inj {s s' : Option Nat} (h : sizeText s = sizeText s') : s = s' := by
  have len : ∀ n, sizeText (some n) ≠ [] := fun n => by simp [sizeText]
  cases s with
  | none =>
    cases s' with
    | none => rfl
    | some n => exact absurd h.symm (len n)
  | some m =>
    cases s' with
    | none => exact absurd h (len m)
    | some n =>
      simp only [sizeText, Option.elim, List.append_assoc] at h
      have h := List.append_cancel_right (List.append_cancel_left h)
      rw [pyDec_inj h]

theorem sizeText_head (s : Option Nat) : ∀ c, (sizeText s).head? = some c → c = ' ' := by
  intro c hc
  cases s with
  | none => cases hc
  | some n => simpa [sizeText] using hc.symm

/-- C106. Different reasons have different messages: the message determines the kind of reason, of an access its address and size, and the address
of code that cannot be executed. -/
theorem C106_lossless {r r' : Reason} (h : r.Made) (h' : r'.Made) (ht : reasonText a signames r = reasonText a signames r') :
    r.kind = r'.kind ∧ (r.kind.isAccess → r.address = r'.address ∧ r.size = r'.size) ∧ (r.kind = .instruction → r.address = r'.address) := by
  have hk : r.kind = r'.kind := kindKey_inj _ _ (by rw [← reasonText_key a signames h, ← reasonText_key a signames h', ht])
  have opt : ∀ x y : FaultAddr, (∀ l, x ≠ .many l) → (∀ l, y ≠ .many l) → x.toOption = y.toOption → x = y := by
    intro x y hx hy he
    cases x with
    | many l => exact absurd rfl (hx l)
    | none =>
      cases y with
      | many l => exact absurd rfl (hy l)
      | none => rfl
      | one y => cases he
    | one x =>
      cases y with
      | many l => exact absurd rfl (hy l)
      | none => cases he
      | one y => cases he; rfl
  refine ⟨hk, fun ha => ?_, fun hi => ?_⟩
  · obtain ⟨hm, hs⟩ := h.2.2 ha
    obtain ⟨hm', hs'⟩ := h'.2.2 (hk ▸ ha)
    have text : ∀ r : Reason, r.kind.isAccess → reasonText a signames r = accessMessage a r.kind r.address r.size := by
      intro r hr
      unfold reasonText
      cases h : r.kind <;> rw [h] at hr <;> first | rfl | exact absurd hr id
    rw [text r ha, text r' (hk ▸ ha), accessMessage_parts a _ _ _ hm hs, accessMessage_parts a _ _ _ hm' hs', ← hk] at ht
    have ht := List.append_cancel_left ht
    have words : ∀ (x : Int) (s s' : Option Nat), placeText a r.kind (some x) ++ sizeText s ≠ sizeText s' := by
      intro x s s' he
      have h2 := congrArg (List.take 2) he
      have e1 : (placeText a r.kind (some x) ++ sizeText s).take 2 ∈ [" t".toList, " f".toList] := by
        simp only [placeText, Option.elim, List.append_assoc]
        have two : ∀ p t : Str, 2 ≤ p.length → (p ++ t).take 2 = p.take 2 := fun p t h => List.take_append_of_le_length h
        rw [two _ _ (by cases r.kind <;> decide)]
        cases r.kind <;> decide
      have e2 : (sizeText s').take 2 ∈ [[], " (".toList] := by
        cases s' with
        | none => exact List.mem_cons_self ..
        | some n => exact List.mem_cons_of_mem _ (List.mem_cons_self ..)
      rw [h2] at e1
      generalize (sizeText s').take 2 = q at e1 e2
      rcases List.mem_cons.1 e2 with rfl | e2
      · exact absurd e1 (by decide)
      · rw [List.mem_singleton.1 e2] at e1
        exact absurd e1 (by decide)
    have key : r.address.toOption = r'.address.toOption ∧ r.size = r'.size := by
      cases hx : r.address.toOption with
      | none =>
        cases hy : r'.address.toOption with
        | none =>
          rw [hx, hy] at ht
          exact ⟨rfl, sizeText_inj ht⟩
        | some y =>
          rw [hx, hy] at ht
          exact absurd ht.symm (words y _ _)
      | some x =>
        cases hy : r'.address.toOption with
        | none =>
          rw [hx, hy] at ht
          exact absurd ht (words x _ _)
        | some y =>
          rw [hx, hy] at ht
          simp only [placeText, Option.elim, List.append_assoc] at ht
          have ht := List.append_cancel_left ht
          obtain ⟨h1, h2⟩ := span_space (formatAddressInt_chars a x).2.1 (formatAddressInt_chars a y).2.1 (sizeText_head _) (sizeText_head _) ht
          exact ⟨congrArg some (formatAddressInt_inj a h1), sizeText_inj h2⟩
    exact ⟨opt _ _ hm hm' key.1, key.2⟩
  · obtain ⟨x, hx⟩ := h.2.1 hi
    obtain ⟨y, hy⟩ := h'.2.1 (hk ▸ hi)
    unfold reasonText at ht
    rw [← hk, hi] at ht
    simp only [hx, hy, List.append_assoc] at ht
    have ht := List.append_cancel_right (List.append_cancel_left ht)
    rw [hx, hy, formatAddressInt_inj a ht]

theorem toLower_hex {c : Char} (h : isHex c = true) : c.toLower = c := by
  unfold Char.toLower
  split
  · rename_i hr
    have h1 : 65 ≤ c.toNat := hr.1
    have h2 : c.toNat ≤ 90 := hr.2
    unfold isHex isDec at h
    rw [Bool.or_eq_true, decide_eq_true_eq, decide_eq_true_eq] at h
    rcases h with h | h
    · have : c.toNat ≤ 57 := le_toNat.1 h.2
      omega
    · have : 97 ≤ c.toNat := le_toNat.1 h.1
      omega
  · rfl

theorem lower_hex {t : Str} (h : ∀ c ∈ t, isHex c = true) : t.map Char.toLower = t := by
  induction t with
  | nil => rfl
  | cons c t ih => rw [List.map_cons, toLower_hex (h c (List.mem_cons_self ..)), ih fun x hx => h x (List.mem_cons_of_mem _ hx)]

/-- C106. The name of a reason for programs: the class and the address in lower case. -/
theorem C106_name (kind : FaultKind) (x : Int) :
    (x = 0 → accessName a kind (.one x) = accessId kind ++ "-null".toList) ∧
    (x ≠ 0 → ∃ t, IntText x t ∧ accessName a kind (.one x) = accessId kind ++ ['-'] ++ t) ∧
    accessName a kind .none = accessId kind := by
  have hid : (accessTexts kind).1 = accessId kind := by cases kind <;> rfl
  refine ⟨?_, ?_, hid⟩
  · rintro rfl
    rw [← hid]
    rfl
  · intro hx
    refine ⟨formatAddressInt a x, formatAddressInt_text a x, ?_⟩
    have hex : ∀ w n, (pyHexPad w n).map Char.toLower = pyHexPad w n := fun w n => lower_hex (hexNumber_some (hexNumber_pyHexPad w n)).2.1
    have low : (formatAddressInt a x).map Char.toLower = formatAddressInt a x := by
      cases x with
      | negSucc n =>
        simp only [formatAddressInt, List.map_cons, hex]
        rfl
      | ofNat n =>
        have hn : n ≠ 0 := fun h => hx (by rw [h]; rfl)
        simp only [formatAddressInt]
        unfold formatAddress
        rw [if_pos hn]
        unfold formatWordHex formatUintHex32 formatUintHex64
        split
        · rw [List.map_cons, List.map_cons, hex]; rfl
        · rw [List.map_cons, List.map_cons, hex]; rfl
    show (accessTexts kind).1 ++ '-' :: (formatAddressInt a x).map Char.toLower = _
    rw [low, List.append_assoc, hid]
    rfl

end

/-! ### Examples -/

example : accessMessage ⟨true, false⟩ .write (.one 0x10) (some 4) = "Invalid write to 0x0000000000000010 (size=4 bytes)".toList := by decide +kernel

example : accessMessage ⟨false, false⟩ .access .none none = "Invalid memory access".toList := by decide +kernel

example : reasonText ⟨false, false⟩ [] ⟨.read, .many [1, 0x20], none, none, [], [], .none⟩ = "Invalid read from 0x00000001 or 0x00000020".toList := by
  decide +kernel

example : accessName ⟨true, false⟩ .read (.one 0) = "invalid_read-null".toList := by decide +kernel

/-- A reason as the analysis makes it, and its lines. -/
def sampleReason : Reason :=
  ⟨.write, .one 0x5000, some 4, some "MOV DWORD [RAX], 0x1".toList, [("rax".toList, 0x5000)], [⟨0x5000, none⟩], .none⟩

example : sampleReason.Made := ⟨(fun h => by cases h), (fun h => by cases h), fun _ => ⟨(fun l h => by cases h), (fun h => by cases h)⟩⟩

example : reasonLines ⟨false, false⟩ [] sampleReason = ["Invalid write to 0x00005000 (size=4 bytes)", "- instruction: MOV DWORD [RAX], 0x1",
    "- mapping: 0x00005000..0x00005003 is not mapped in memory", "- register rax=0x00005000"].map String.toList := by decide +kernel

/-- A process whose stack pointer is below its stack. -/
def deepView : FaultView where
  siginfo := some 0x6ff8
  instr := .ok "PUSH RAX".toList
  ip := .ok 0x1004
  sp := .ok 0x6ff8
  maps := [⟨0x7000, 0x9000, "rw-p".toList, 0, 0, 0, 0, some "[stack]".toList⟩]
  reg := fun _ => .ok 1

def deepProc : FaultProc Unit where
  siginfo := fun s => (.ok deepView.siginfo, s)
  child := fun s => (.error .value, s)
  disassembleOne := fun s => (deepView.instr, s)
  getInstrPointer := fun s => (deepView.ip, s)
  getStackPointer := fun s => (deepView.sp, s)
  readMappings := fun s => (.ok deepView.maps, s)
  getreg := fun n s => (deepView.reg n, s)
  parseExpression := fun _ s => (.error .value, s)

example (a : Arch) := C106_report a [] ⟨true, true, .x86_64, true⟩ deepProc 7 11 none ⟨(), []⟩ (Prod.ext rfl rfl)

-- the debugger cannot tell what happened
example (a : Arch) := C106_silent a [] ⟨true, true, .x86_64, true⟩ { deepProc with readMappings := fun s => (.error (.os 2), s) } 7 11 none ⟨(), []⟩ (s := ()) (e := .os 2)
  (Prod.ext (by decide +kernel) rfl)

example := C106_access ⟨false, false⟩ [] sampleReason trivial (fun l h => by cases h) (fun h => by cases h)

example := C106_several ⟨false, false⟩ [] ⟨.read, .many [1, 0x20], none, none, [], [], .none⟩ trivial [1, 0x20] rfl rfl

example := C106_instruction ⟨false, false⟩ [] ⟨.instruction, .one 0x10, none, none, [], [], .none⟩ rfl (x := 0x10) rfl

example := C106_lossless ⟨false, false⟩ [] (r := sampleReason) (r' := { sampleReason with instr := none })
  ⟨(fun h => by cases h), (fun h => by cases h), fun _ => ⟨(fun l h => by cases h), (fun h => by cases h)⟩⟩
  ⟨(fun h => by cases h), (fun h => by cases h), fun _ => ⟨(fun l h => by cases h), (fun h => by cases h)⟩⟩ rfl

example : ∃ r t, memoryFault ⟨true, true, .x86_64, true⟩ deepProc none () = (.ok r, ()) ∧
    reasonText ⟨true, false⟩ [] r = "STACK OVERFLOW! Stack pointer is in ".toList ++ t ∧
    MappingText ⟨0x7000, 0x9000, "rw-p".toList, 0, 0, 0, 0, some "[stack]".toList⟩ t ∧
    ¬ InMapping ⟨0x7000, 0x9000, "rw-p".toList, 0, 0, 0, 0, some "[stack]".toList⟩ (0x6ff8 : Nat) :=
  C106_overflow_refuted (w := deepView) _ _
    ⟨fun _ => rfl, fun _ => rfl, fun e h => (by cases h), fun _ => rfl, fun e h => (by cases h), fun _ => rfl, fun _ => rfl, fun _ _ => rfl, fun n e h => (by cases h)⟩
    rfl (by decide) _ rfl 0x6ff8 rfl (by decide) (fun t ht => by cases ht; decide +kernel) none ()

end PT
