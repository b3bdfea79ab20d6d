import Mathlib.Data.List.Nodup
import Verif.Props.Text
import Verif.Spec.Printed
import Verif.Props.Address

/-!
# Reading back the text printed by dot15d4-cat (for C75)
-/

namespace Dot15d4.Props
open Dot15d4 Out Spec Text

/-! ## Numbers -/

/-- The value of digits. -/
def valueOf (b : Nat) (t : List Char) : Nat := t.foldl (fun a c => b * a + (digitValue c).getD 0) 0

theorem _root_.Dot15d4.Spec.Numeral.value {b : Nat} {t : List Char} {n : Nat} (h : Numeral b t n) : valueOf b t = n := by
  induction h with
  | digit c n h _ => simp [valueOf, h]
  | more t m c n _ _ h _ ih =>
    have ih' : t.foldl (fun a c => b * a + (digitValue c).getD 0) 0 = m := ih
    simp [valueOf, ih', h]

theorem _root_.Dot15d4.Spec.Numeral.unique {b : Nat} {t : List Char} {n m : Nat} (h : Numeral b t n) (h' : Numeral b t m) :
    n = m := by rw [← h.value, h'.value]

theorem _root_.Dot15d4.Spec.Numeral.digits {b : Nat} {t : List Char} {n : Nat} (h : Numeral b t n) :
    ∀ c ∈ t, (digitValue c).isSome := by
  induction h with
  | digit c n h _ => simp [h]
  | more t m c n _ _ h _ ih =>
    intro x hx
    rcases List.mem_append.1 hx with hx | hx
    · exact ih x hx
    · simp only [List.mem_singleton] at hx; subst hx; simp [h]

theorem _root_.Dot15d4.Spec.Numeral.ne_nil {b : Nat} {t : List Char} {n : Nat} (h : Numeral b t n) : t ≠ [] := by
  cases h <;> simp

theorem dec_numeral (n : Nat) : Numeral 10 (dec n) n := toDigits_numeral 10 (by decide) (by decide) n
theorem hex_numeral (n : Nat) : Numeral 16 (hex n) n := toDigits_numeral 16 (by decide) (by decide) n

theorem dec_inj {n m : Nat} (h : dec n = dec m) : n = m := (h ▸ dec_numeral n).unique (dec_numeral m)
theorem hex_inj {n m : Nat} (h : hex n = hex m) : n = m := (h ▸ hex_numeral n).unique (hex_numeral m)

/-- A text without `s` is found before the first `s`. -/
theorem split_at {α : Type} (P : α → Prop) {x x' y y' : List α} {s s' : α} (hx : ∀ c ∈ x, P c)
    (hx' : ∀ c ∈ x', P c) (hs : ¬ P s) (hs' : ¬ P s') (h : x ++ s :: y = x' ++ s' :: y') :
    x = x' ∧ s = s' ∧ y = y' := by
  induction x generalizing x' with
  | nil =>
    cases x' with
    | nil => simpa using h
    | cons c x' =>
      simp only [List.nil_append, List.cons_append, List.cons.injEq] at h
      exact absurd (h.1 ▸ hx' c (by simp)) hs
  | cons c x ih =>
    cases x' with
    | nil =>
      simp only [List.nil_append, List.cons_append, List.cons.injEq] at h
      exact absurd (h.1 ▸ hx c (by simp)) hs'
    | cons c' x' =>
      simp only [List.cons_append, List.cons.injEq] at h
      obtain ⟨a, b, d⟩ := ih (fun c hc => hx c (by simp [hc])) (fun c hc => hx' c (by simp [hc])) h.2
      exact ⟨by rw [h.1, a], b, d⟩

/-- A digit. -/
abbrev IsDig (c : Char) : Prop := (digitValue c).isSome

theorem dec_digits (n : Nat) : ∀ c ∈ dec n, IsDig c := (dec_numeral n).digits
theorem hex_digits (n : Nat) : ∀ c ∈ hex n, IsDig c := (hex_numeral n).digits

theorem dec_split {n m : Nat} {y y' : Chars} {s s' : Char} (hs : ¬ IsDig s) (hs' : ¬ IsDig s')
    (h : dec n ++ s :: y = dec m ++ s' :: y') : n = m ∧ y = y' := by
  obtain ⟨a, -, b⟩ := split_at IsDig (dec_digits n) (dec_digits m) hs hs' h
  exact ⟨dec_inj a, b⟩

theorem bit_inj {a b : Bool} (h : Text.bit a = Text.bit b) : a = b := by
  have := dec_inj h
  cases a <;> cases b <;> simp_all

theorem byte_inj {w : Nat} {a b : BitVec w} (h : dec a.toNat = dec b.toNat) : a = b :=
  BitVec.eq_of_toNat_eq (dec_inj h)

theorem more_inj {l m : Bytes} (h : more l = more m) : l = m := by
  have nd : ¬ IsDig ',' := by decide
  have nb : ¬ IsDig ']' := by decide
  induction l generalizing m with
  | nil =>
    cases m with
    | nil => rfl
    | cons b m => simp [more] at h
  | cons a l ih =>
    cases m with
    | nil => simp [more] at h
    | cons b m =>
      simp only [more, List.cons.injEq, true_and] at h
      have key : ∀ l : Bytes, ∃ s t, more l = s :: t ∧ ¬ IsDig s := by
        intro l
        cases l with
        | nil => exact ⟨_, _, rfl, nb⟩
        | cons b l => exact ⟨_, _, rfl, nd⟩
      obtain ⟨s, t, e, hs⟩ := key l
      obtain ⟨s', t', e', hs'⟩ := key m
      rw [e, e'] at h
      obtain ⟨x, y, z⟩ := split_at IsDig (hex_digits _) (hex_digits _) hs hs' h
      have hlm : l = m := ih (by rw [e, e', y, z])
      rw [BitVec.eq_of_toNat_eq (hex_inj x), hlm]

theorem bytes_inj {l m : Bytes} (h : Text.bytes l = Text.bytes m) : l = m := by
  have nd : ¬ IsDig ']' := by decide
  cases l with
  | nil =>
    cases m with
    | nil => rfl
    | cons b m =>
      exfalso
      simp only [Text.bytes, List.cons.injEq, true_and] at h
      have hd := hex_digits b.toNat
      have hn := (hex_numeral b.toNat).ne_nil
      cases e : hex b.toNat with
      | nil => exact hn e
      | cons c t =>
        rw [e, List.cons_append, List.cons.injEq] at h
        exact nd (h.1 ▸ hd c (by rw [e]; simp))
  | cons a l =>
    cases m with
    | nil =>
      exfalso
      simp only [Text.bytes, List.cons.injEq, true_and] at h
      have hd := hex_digits a.toNat
      have hn := (hex_numeral a.toNat).ne_nil
      cases e : hex a.toNat with
      | nil => exact hn e
      | cons c t =>
        rw [e, List.cons_append, List.cons.injEq] at h
        exact nd (h.1 ▸ hd c (by rw [e]; simp))
    | cons b m =>
      refine more_inj (l := a :: l) (m := b :: m) ?_
      simp only [Text.bytes, List.cons.injEq, true_and] at h
      simp only [more, h]

/-- The options shown. -/
def optionsOf (t : Chars) : Nat :=
  (t.count 'T' - t.count 'K') + 2 * t.count 'R' + 4 * t.count 'S' + 8 * t.count 'K' + 16 * t.count 'P'

theorem optionsOf_linkOptions : ∀ o : Byte, optionsOf (linkOptions o) = (o &&& 0x1f).toNat := by
  decide +kernel

theorem linkOptions_inj {o p : Byte} (ho : o &&& 0x1f = o) (hp : p &&& 0x1f = p)
    (h : linkOptions o = linkOptions p) : o = p := by
  have := optionsOf_linkOptions o
  rw [h, optionsOf_linkOptions p, hp, ho] at this
  exact (BitVec.eq_of_toNat_eq this).symm

/-! ## Lines -/

theorem content_text s : content (.text s) =
    s.toList := rfl
theorem content_frameType e t : content (.frameType e t) =
    "frame type: ".toList ++ (if e then "Enhanced ".toList else []) ++ (frameType t).toList := rfl
theorem content_bit label v : content (.bit label v) =
    label.toList ++ ": ".toList ++ bit v := rfl
theorem content_mode label m : content (.mode label m) =
    label.toList ++ ": ".toList ++ (mode m).toList := rfl
theorem content_version v : content (.version v) =
    "frame version: ".toList ++ dec v.toU8.toNat ++ " (".toList ++ (frameVersion v).toList ++ [')'] := rfl
theorem content_sequenceNumber n : content (.sequenceNumber n) =
    "sequence number: ".toList ++ dec n.toNat := rfl
theorem content_panId label id : content (.panId label id) =
    label.toList ++ ": ".toList ++ hex id.toNat := rfl
theorem content_address label a b : content (.address label a b) =
    label.toList ++ ": ".toList ++ a.display ++ (if b then " (broadcast)".toList else []) := rfl
theorem content_headerElement id : content (.headerElement id) =
    (headerId id).toList := rfl
theorem content_timeCorrection t n : content (.timeCorrection t n) =
    duration t ++ ", nack: ".toList ++ bit n := rfl
theorem content_nestedElement id : content (.nestedElement id) =
    (nestedId id).toList := rfl
theorem content_synchronization asn jm : content (.synchronization asn jm) =
    "ASN: ".toList ++ dec asn.toNat ++ ", join metric: ".toList ++ dec jm.toNat := rfl
theorem content_timeslot id : content (.timeslot id) =
    "slot ID: ".toList ++ dec id.toNat := rfl
theorem content_slotframes n : content (.slotframes n) =
    "#slotframes: ".toList ++ dec n.toNat := rfl
theorem content_slotframe h n : content (.slotframe h n) =
    "Slotframe Handle: ".toList ++ dec h.toNat ++ ", #links: ".toList ++ dec n.toNat := rfl
theorem content_link t c o : content (.link t c o) =
    "Timeslot: ".toList ++ dec t.toNat ++ ", Channel Offset: ".toList ++ dec c.toNat ++ ", Link Options: ".toList ++ linkOptions o := rfl
theorem content_channelHopping id : content (.channelHopping id) =
    "sequence ID: ".toList ++ dec id.toNat := rfl
theorem content_otherGroup id : content (.otherGroup id) =
    (groupId id).toList ++ ": unimplemented".toList := rfl
theorem content_payload b : content (.payload b) =
    bytes b := rfl

/-- The headings and fixed words. -/
def headings : List String :=
  ["Frame Control", "Sequence Number", "Addressing", "Auxiliary Security Header", "unimplementec",
   "Information Elements", "Header Information Elements", "Payload Information Elements", "invalid",
   "unimplemented", "MLME", "Payload"]

/-- The labels of bits. -/
def bitLabels : List String :=
  ["security", "frame pending", "ack request", "pan id compression", "sequence number suppression",
   "information elements present"]

/-- Lines the decoder prints. -/
def Printed : Cat.Line → Prop
  | .text s => s ∈ headings
  | .bit s _ => s ∈ bitLabels
  | .mode s _ => s ∈ ["dst addressing mode", "src addressing mode"]
  | .panId s _ => s ∈ ["dst pan id", "src pan id"]
  | .address s _ _ => s ∈ ["dst addr", "src addr"]
  | .link _ _ o => o &&& 0x1f = o
  | .timings _ => False
  | _ => True

/-- The labels in front of a colon. -/
def labels : List Chars :=
  ["frame type", "frame version", "sequence number", "dst pan id", "src pan id", "dst addr", "src addr",
   "ASN", "slot ID", "#slotframes", "Slotframe Handle", "Timeslot", "sequence ID",
   "dst addressing mode", "src addressing mode", "security", "frame pending", "ack request",
   "pan id compression", "sequence number suppression", "information elements present",
   "Esdu", "Mlme", "VendorSpecific", "PayloadTermination", "Unknown",
   "cca_offset", "cca", "tx offset", "rx offset", "tx ack delay", "rx ack delay", "rx wait", "ack wait",
   "rx/tx", "max ack", "max tx", "timeslot length"].map String.toList

/-- What kind of line a text is. -/
def kindOf (t : Chars) : Nat :=
  match t with
  | [] => 100
  | c :: t' =>
    if c = '[' then 101
    else if c = '-' ∨ (48 ≤ c.toNat ∧ c.toNat ≤ 57) then 102
    else if t'.contains ':' = false then 103 else labels.idxOf (t.takeWhile (· ≠ ':'))

/-- What kind of line a line is. -/
def kind : Cat.Line → Nat
  | .text _ | .headerElement _ | .nestedElement _ => 103
  | .payload _ => 101
  | .timeCorrection _ _ => 102
  | .frameType _ _ => 0
  | .version _ => 1
  | .sequenceNumber _ => 2
  | .panId s _ => labels.idxOf s.toList
  | .address s _ _ => labels.idxOf s.toList
  | .synchronization _ _ => 7
  | .timeslot _ => 8
  | .slotframes _ => 9
  | .slotframe _ _ => 10
  | .link _ _ _ => 11
  | .channelHopping _ => 12
  | .mode s _ => labels.idxOf s.toList
  | .bit s _ => labels.idxOf s.toList
  | .otherGroup id => labels.idxOf (groupId id).toList
  | .timings _ => 104

theorem kind_words : (∀ s ∈ headings, kindOf s.toList = 103) := by decide +kernel

/-- All header element ids. -/
def headerIds : List HeaderElementId :=
  [.vendorSpecificHeader, .csl, .rit, .dsmePanDescriptor, .rendezvousTime, .timeCorrection,
   .extendedDsmePanDescriptor, .fragmentSequenceContextDescription,
   .simplifiedSuperframeSpecification, .simplifiedGtsSpecification, .lecimCapabilities,
   .trleDescriptor, .rccCapabilities, .rccnDescriptor, .globalTime, .da, .headerTermination1,
   .headerTermination2, .unkown]

/-- All short ids. -/
def shortIds : List NestedSubIdShort :=
  [.tschSynchronization, .tschSlotframeAndLink, .tschTimeslot, .hoppingTiming,
   .enhancedBeaconFilter, .macMetrics, .allMacMetrics, .coexistenceSpecification,
   .sunDeviceCapabilities, .sunFskGenericPhy, .modeSwitchParameter, .phyParameterChange,
   .oQpskPhyMode, .pcaAllocation, .lecimDsssOperatingMode, .lecimFskOperatingMode,
   .tvwsPhyOperatingMode, .tvwsDeviceCapabilities, .tvwsDeviceCategory, .tvwsDeviceIdentification,
   .tvwsDeviceLocation, .tvwsChannelInformationQuery, .tvwsChannelInformationSource, .ctm,
   .timestamp, .timestampDifference, .tmctpSpecification, .rccPhyOperatingMode, .linkMargin,
   .rsGfskDeviceCapabilities, .multiPhy, .vendorSpecific, .srm, .unkown]

/-- All long ids. -/
def longIds : List NestedSubIdLong := [.vendorSpecificNested, .channelHopping, .unkown]

theorem kind_headers (id : HeaderElementId) : kindOf (headerId id).toList = 103 := by
  have h : ∀ id ∈ headerIds, kindOf (headerId id).toList = 103 := by decide +kernel
  exact h id (by cases id <;> simp [headerIds])

theorem kind_short (id : NestedSubIdShort) : kindOf (shortId id).toList = 103 := by
  have h : ∀ id ∈ shortIds, kindOf (shortId id).toList = 103 := by decide +kernel
  exact h id (by cases id <;> simp [shortIds])

theorem kind_long (id : NestedSubIdLong) : kindOf (longId id).toList = 103 := by
  have h : ∀ id ∈ longIds, kindOf (longId id).toList = 103 := by decide +kernel
  exact h id (by cases id <;> simp [longIds])

theorem digit_code {c : Char} (h : c.isDigit = true) : 48 ≤ c.toNat ∧ c.toNat ≤ 57 := by
  simp only [Char.isDigit, Bool.and_eq_true, decide_eq_true_eq] at h
  exact ⟨h.1, h.2⟩

theorem dec_head (n : Nat) : ∃ c t, dec n = c :: t ∧ 48 ≤ c.toNat ∧ c.toNat ≤ 57 := by
  cases e : dec n with
  | nil => exact absurd e (dec_numeral n).ne_nil
  | cons c t =>
    exact ⟨c, t, rfl, digit_code (Nat.isDigit_of_mem_toDigits (b := 10) (n := n) (by decide) (by decide)
      (by show c ∈ dec n; rw [e]; simp))⟩

theorem signed_head (h : Nat) (b : Bool) : ∃ c t,
    (if b then ['-'] else []) ++ hundredths h ++ ['m', 's'] = c :: t ∧
      (c = '-' ∨ (48 ≤ c.toNat ∧ c.toNat ≤ 57)) := by
  obtain ⟨c, t, e, hc⟩ := dec_head (h / 100)
  cases b with
  | true => exact ⟨'-', hundredths h ++ ['m', 's'], rfl, Or.inl rfl⟩
  | false =>
    refine ⟨c, t ++ '.' :: Nat.digitChar (h % 100 / 10) :: [Nat.digitChar (h % 10)] ++ ['m', 's'], ?_,
      Or.inr hc⟩
    unfold hundredths
    rw [e]
    simp

theorem duration_eq (d : Duration) : ∃ h : Nat, Text.duration d =
    (if decide (d.us.toInt < 0) then ['-'] else []) ++ hundredths h ++ ['m', 's'] := by
  refine ⟨shownHundredths d.us.toInt.natAbs, ?_⟩
  have e := ms_eq d.us.toInt
  have : Text.duration d = ms d.us.toInt := by unfold Text.duration; exact Eq.refl _
  rw [this, e]
  simp only [decide_eq_true_eq]

theorem duration_head (d : Duration) : ∃ c t, Text.duration d = c :: t ∧
    (c = '-' ∨ (48 ≤ c.toNat ∧ c.toNat ≤ 57)) := by
  obtain ⟨h, e⟩ := duration_eq d
  rw [e]
  exact signed_head h _

theorem takeWhile_append_mem {t x : Chars} (h : ':' ∈ t) :
    (t ++ x).takeWhile (· ≠ ':') = t.takeWhile (· ≠ ':') := by
  induction t with
  | nil => simp at h
  | cons c t ih =>
    by_cases hc : c = ':'
    · simp [hc]
    · have : ':' ∈ t := by
        rcases List.mem_cons.1 h with h | h
        · exact absurd h.symm hc
        · exact h
      simp only [List.cons_append, List.takeWhile_cons]
      rw [ih this]

theorem kindOf_append (t x : Chars) (h : ':' ∈ t.tail) : kindOf (t ++ x) = kindOf t := by
  cases t with
  | nil => simp at h
  | cons c t =>
    have h' : ':' ∈ t := h
    have e := takeWhile_append_mem (t := c :: t) (x := x) (by simp [h'])
    simp only [List.cons_append] at e
    simp only [List.cons_append, kindOf, e, List.contains_iff_mem, List.contains_append,
      Bool.or_eq_false_iff]
    have h2 : t.contains ':' = true := by simpa using h'
    rw [h2]
    simp

theorem kindOf_content (l : Cat.Line) (h : Printed l) : kindOf (content l) = kind l := by
  cases l with
  | text s => simp only [content_text, kind]; exact kind_words s h
  | headerElement id => simp only [content_headerElement, kind, kind_headers]
  | nestedElement id => cases id with
    | short id => simp only [content_nestedElement, nestedId, kind, kind_short]
    | long id => simp only [content_nestedElement, nestedId, kind, kind_long]
  | payload b => cases b <;> simp only [content_payload, Text.bytes, kindOf, kind, if_true]
  | timeCorrection t n =>
    obtain ⟨c, r, e, hc⟩ := duration_head t
    simp only [content_timeCorrection, e, List.cons_append, kindOf, kind]
    have : c ≠ '[' := by
      rintro rfl
      rcases hc with h | h
      · exact absurd h (by decide)
      · exact absurd h (by decide)
    rw [if_neg this, if_pos hc]
  | frameType e t =>
    simp only [content_frameType, List.append_assoc]
    rw [kindOf_append _ _ (by decide +kernel)]; simp only [kind]; decide +kernel
  | version v =>
    simp only [content_version, List.append_assoc]
    rw [kindOf_append _ _ (by decide +kernel)]; simp only [kind]; decide +kernel
  | sequenceNumber n =>
    simp only [content_sequenceNumber]
    rw [kindOf_append _ _ (by decide +kernel)]; simp only [kind]; decide +kernel
  | synchronization a j =>
    simp only [content_synchronization, List.append_assoc]
    rw [kindOf_append _ _ (by decide +kernel)]; simp only [kind]; decide +kernel
  | timeslot i =>
    simp only [content_timeslot]
    rw [kindOf_append _ _ (by decide +kernel)]; simp only [kind]; decide +kernel
  | slotframes n =>
    simp only [content_slotframes]
    rw [kindOf_append _ _ (by decide +kernel)]; simp only [kind]; decide +kernel
  | slotframe a n =>
    simp only [content_slotframe, List.append_assoc]
    rw [kindOf_append _ _ (by decide +kernel)]; simp only [kind]; decide +kernel
  | link a b c =>
    simp only [content_link, List.append_assoc]
    rw [kindOf_append _ _ (by decide +kernel)]; simp only [kind]; decide +kernel
  | channelHopping i =>
    simp only [content_channelHopping]
    rw [kindOf_append _ _ (by decide +kernel)]; simp only [kind]; decide +kernel
  | otherGroup id => cases id <;> decide +kernel
  | timings t => exact h.elim
  | panId s v =>
    simp only [content_panId]
    simp only [Printed, List.mem_cons, List.not_mem_nil, or_false] at h
    rcases h with rfl | rfl <;>
    · rw [kindOf_append _ _ (by decide +kernel)]; simp only [kind]; decide +kernel
  | address s v b =>
    simp only [content_address]
    rw [List.append_assoc]
    simp only [Printed, List.mem_cons, List.not_mem_nil, or_false] at h
    rcases h with rfl | rfl <;>
    · rw [kindOf_append _ _ (by decide +kernel)]; simp only [kind]; decide +kernel
  | mode s v =>
    simp only [content_mode]
    simp only [Printed, List.mem_cons, List.not_mem_nil, or_false] at h
    rcases h with rfl | rfl <;>
    · rw [kindOf_append _ _ (by decide +kernel)]; simp only [kind]; decide +kernel
  | bit s v =>
    simp only [content_bit]
    simp only [Printed, bitLabels, List.mem_cons, List.not_mem_nil, or_false] at h
    rcases h with rfl | rfl | rfl | rfl | rfl | rfl <;>
    · rw [kindOf_append _ _ (by decide +kernel)]; simp only [kind]; decide +kernel

end Dot15d4.Props
