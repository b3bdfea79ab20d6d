import Verif.Lemmas.Text
import Verif.Props.Cat

/-!
# C75: what dot15d4-cat prints determines what it shows

If two frames are printed as the same text, the lines are the same: the same headings, fields, elements
and payload, with the same values.  Only two things can differ: times that are shown alike after rounding
(C74), and which of the unknown ids an element of unknown id has.  In particular the frame control
field, sequence number, PAN ids, addresses and payload of the two frames are the same.
-/

namespace Dot15d4.Props
open Dot15d4 Out Spec Text

/-! ## Lines with finitely many values -/

/-- The frame types. -/
def frameTypes : List FrameType :=
  [.beacon, .data, .ack, .macCommand, .multipurpose, .fragmentOrFrak, .extended, .unknown]

/-- The addressing modes. -/
def modes : List AddressingMode := [.absent, .short, .extended, .unknown]

/-- The lines that have only finitely many values. -/
def words : List Cat.Line :=
  headings.map .text ++ (headerIds.map .headerElement ++
    ((shortIds.filter (· ≠ .unkown)).map (fun i => .nestedElement (.short i)) ++
    ((longIds.filter (· ≠ .unkown)).map (fun i => .nestedElement (.long i)) ++
    (frameTypes.map (.frameType false) ++ (frameTypes.map (.frameType true) ++
    ([FrameVersion.v2003, .v2006, .v2020, .unknown].map .version ++
    (modes.map (.mode "dst addressing mode") ++ (modes.map (.mode "src addressing mode") ++
    ([PayloadGroupId.esdu, .mlme, .vendorSpecific, .payloadTermination, .unknown].map .otherGroup ++
    (bitLabels.map (.bit · false) ++ bitLabels.map (.bit · true)))))))))))

theorem words_nodup : (words.map content).Nodup := by decide +kernel

/-- The kind, with the lines of finitely many values taken together, and the two labels of PAN ids and
addresses. -/
def group (k : Nat) : Nat :=
  if k = 0 ∨ k = 1 ∨ k = 103 ∨ (13 ≤ k ∧ k ≤ 25) then 103
  else if k = 4 then 3 else if k = 6 then 5 else k

/-- The group of a line. -/
def groupOf : Cat.Line → Nat
  | .text _ | .headerElement _ | .nestedElement _ | .frameType _ _ | .version _ | .mode _ _ | .bit _ _
  | .otherGroup _ => 103
  | .payload _ => 101
  | .timeCorrection _ _ => 102
  | .sequenceNumber _ => 2
  | .panId _ _ => 3
  | .address _ _ _ => 5
  | .synchronization _ _ => 7
  | .timeslot _ => 8
  | .slotframes _ => 9
  | .slotframe _ _ => 10
  | .link _ _ _ => 11
  | .channelHopping _ => 12
  | .timings _ => 104

theorem group_kind (l : Cat.Line) (h : Printed l) : group (kind l) = groupOf l := by
  cases l with
  | panId s v =>
    simp only [Printed, List.mem_cons, List.not_mem_nil, or_false] at h
    rcases h with rfl | rfl <;> (simp only [kind, groupOf]; decide +kernel)
  | address s v b =>
    simp only [Printed, List.mem_cons, List.not_mem_nil, or_false] at h
    rcases h with rfl | rfl <;> (simp only [kind, groupOf]; decide +kernel)
  | mode s v =>
    simp only [Printed, List.mem_cons, List.not_mem_nil, or_false] at h
    rcases h with rfl | rfl <;> (simp only [kind, groupOf]; decide +kernel)
  | bit s v =>
    simp only [Printed, bitLabels, List.mem_cons, List.not_mem_nil, or_false] at h
    rcases h with rfl | rfl | rfl | rfl | rfl | rfl <;> (simp only [kind, groupOf]; decide +kernel)
  | otherGroup id => cases id <;> (simp only [kind, groupOf]; decide +kernel)
  | _ => simp only [kind, groupOf]; decide

theorem word_cases (l : Cat.Line) (h : Printed l) (hk : groupOf l = 103) :
    l ∈ words ∨ l ∈ unknownIds := by
  simp only [words, List.mem_append, List.mem_map]
  cases l with
  | text s => exact .inl (.inl ⟨s, h, rfl⟩)
  | headerElement id =>
    exact .inl (.inr (.inl ⟨id, by cases id <;> simp [headerIds], rfl⟩))
  | nestedElement id =>
    cases id with
    | short id =>
      by_cases e : id = .unkown
      · exact .inr (by rw [e]; simp [unknownIds])
      · exact .inl (.inr (.inr (.inl
          ⟨id, List.mem_filter.2 ⟨by cases id <;> simp [shortIds], by simpa using e⟩, rfl⟩)))
    | long id =>
      by_cases e : id = .unkown
      · exact .inr (by rw [e]; simp [unknownIds])
      · exact .inl (.inr (.inr (.inr (.inl
          ⟨id, List.mem_filter.2 ⟨by cases id <;> simp [longIds], by simpa using e⟩, rfl⟩))))
  | frameType e t =>
    cases e with
    | false => exact .inl (.inr (.inr (.inr (.inr (.inl ⟨t, by cases t <;> simp [frameTypes], rfl⟩)))))
    | true =>
      exact .inl (.inr (.inr (.inr (.inr (.inr (.inl ⟨t, by cases t <;> simp [frameTypes], rfl⟩))))))
  | version v =>
    exact .inl (.inr (.inr (.inr (.inr (.inr (.inr (.inl ⟨v, by cases v <;> simp, rfl⟩)))))))
  | mode s m =>
    have hm : m ∈ modes := by cases m <;> simp [modes]
    simp only [Printed, List.mem_cons, List.not_mem_nil, or_false] at h
    rcases h with rfl | rfl
    · exact .inl (.inr (.inr (.inr (.inr (.inr (.inr (.inr (.inl ⟨m, hm, rfl⟩))))))))
    · exact .inl (.inr (.inr (.inr (.inr (.inr (.inr (.inr (.inr (.inl ⟨m, hm, rfl⟩)))))))))
  | otherGroup id =>
    exact .inl (.inr (.inr (.inr (.inr (.inr (.inr (.inr (.inr (.inr (.inl
      ⟨id, by cases id <;> simp, rfl⟩))))))))))
  | bit s v =>
    cases v with
    | false =>
      exact .inl (.inr (.inr (.inr (.inr (.inr (.inr (.inr (.inr (.inr (.inr (.inl ⟨s, h, rfl⟩)))))))))))
    | true =>
      exact .inl (.inr (.inr (.inr (.inr (.inr (.inr (.inr (.inr (.inr (.inr (.inr ⟨s, h, rfl⟩)))))))))))
  | _ => simp only [groupOf] at hk; omega

theorem words_alike {l m : Cat.Line} (hl : Printed l) (hm : Printed m) (kl : groupOf l = 103)
    (km : groupOf m = 103) (h : content l = content m) : Alike l m := by
  have hu : ∀ l ∈ unknownIds, content l = content (.headerElement .unkown) := by decide +kernel
  have hw : Cat.Line.headerElement .unkown ∈ words := by decide +kernel
  have inj := List.inj_on_of_nodup_map words_nodup
  rcases word_cases l hl kl with h1 | h1 <;> rcases word_cases m hm km with h2 | h2
  · rw [inj h1 h2 h]; exact .refl _
  · rw [hu m h2] at h
    rw [inj h1 hw h]
    exact .unknown (by simp [unknownIds]) h2
  · rw [hu l h1] at h
    rw [inj h2 hw h.symm]
    exact .unknown h1 (by simp [unknownIds])
  · exact .unknown h1 h2

/-! ## Lines with values -/

/-- The characters of a number with a sign and a fraction. -/
abbrev IsNum (c : Char) : Prop := IsDig c ∨ c = '-' ∨ c = '.' ∨ c = 'm' ∨ c = 's'

theorem hundredths_chars (h : Nat) : ∀ c ∈ hundredths h, IsNum c := by
  intro c hc
  unfold hundredths at hc
  simp only [List.mem_append, List.mem_cons, List.not_mem_nil, or_false] at hc
  rcases hc with hc | rfl | rfl | rfl
  · exact .inl (dec_digits _ c hc)
  · exact .inr (.inr (.inl rfl))
  · exact .inl (by rw [IsDig, digitValue_digitChar _ (by omega)]; rfl)
  · exact .inl (by rw [IsDig, digitValue_digitChar _ (by omega)]; rfl)

theorem duration_chars (d : Duration) : ∀ c ∈ Text.duration d, IsNum c := by
  obtain ⟨h, e⟩ := duration_eq d
  rw [e]
  generalize decide (d.us.toInt < 0) = b
  intro c hc
  simp only [List.mem_append, List.mem_cons, List.not_mem_nil, or_false] at hc
  rcases hc with (hc | hc) | hc
  · cases b with
    | true => simp at hc; exact .inr (.inl hc)
    | false => simp at hc
  · exact hundredths_chars h c hc
  · rcases hc with rfl | rfl
    · exact .inr (.inr (.inr (.inl rfl)))
    · exact .inr (.inr (.inr (.inr rfl)))

theorem hexColon_chars : ∀ l : Bytes, ∀ c ∈ Address.hexColon l, c ≠ ' ' ∧ c ≠ '\n'
  | [] => by simp [Address.hexColon]
  | [b] => by
    have key : ∀ b : Byte, ∀ c ∈ Address.hex2 b, c ≠ ' ' ∧ c ≠ '\n' := by decide +kernel
    exact key b
  | b :: b' :: bs => by
    have key : ∀ b : Byte, ∀ c ∈ Address.hex2 b, c ≠ ' ' ∧ c ≠ '\n' := by decide +kernel
    have ih := hexColon_chars (b' :: bs)
    intro c hc
    rw [Address.hexColon] at hc
    · simp only [List.mem_append, List.mem_cons] at hc
      rcases hc with hc | rfl | hc
      · exact key b c hc
      · decide
      · exact ih c hc
    · simp

theorem display_chars (a : Address) : ∀ c ∈ a.display, c ≠ ' ' ∧ c ≠ '\n' := by
  cases a with
  | absent => decide
  | short v => exact hexColon_chars _
  | extended v => exact hexColon_chars _

theorem not_dig_comma : ¬ IsDig ',' := by decide

theorem not_num_comma : ¬ IsNum ',' := by decide

theorem display_inj {a b : Address} (h : a.display = b.display) : a = b := by
  have h0 := C07_absent.1
  by_cases ha : a = .absent <;> by_cases hb : b = .absent
  · rw [ha, hb]
  · have := C07_parse_display b hb
    rw [← h, ha, h0] at this
    exact absurd this (by simp)
  · have := C07_parse_display a ha
    rw [h, hb, h0] at this
    exact absurd this (by simp)
  · exact C07_display_injective a b ha hb h

theorem address_inj {a a' : Address} {b b' : Bool}
    (h : a.display ++ (if b then " (broadcast)".toList else []) =
      a'.display ++ (if b' then " (broadcast)".toList else [])) : a = a' ∧ b = b' := by
  have key : ∀ x y : Address, x.display ≠ y.display ++ " (broadcast)".toList := by
    intro x y e
    exact (display_chars x ' ' (by rw [e]; simp)).1 rfl
  cases b <;> cases b'
  · simp only [Bool.false_eq_true, if_false, List.append_nil] at h
    exact ⟨display_inj h, rfl⟩
  · simp only [Bool.false_eq_true, if_false, if_true, List.append_nil] at h
    exact absurd h (key _ _)
  · simp only [Bool.false_eq_true, if_false, if_true, List.append_nil] at h
    exact absurd h.symm (key _ _)
  · exact ⟨display_inj (List.append_cancel_right h), rfl⟩

theorem content_inj {l m : Cat.Line} (hl : Printed l) (hm : Printed m) (h : content l = content m) :
    Alike l m := by
  have hk : kind l = kind m := by rw [← kindOf_content l hl, ← kindOf_content m hm, h]
  have hg : groupOf l = groupOf m := by rw [← group_kind l hl, ← group_kind m hm, hk]
  cases l <;> cases m <;> first
    | exact words_alike hl hm rfl rfl h
    | (exfalso; simp only [groupOf] at hg; omega)
    | exact hl.elim
    | skip
  case sequenceNumber.sequenceNumber a b =>
    simp only [content_sequenceNumber] at h
    rw [byte_inj (List.append_cancel_left h)]; exact .refl _
  case panId.panId s a s' b =>
    have e : s = s' := by
      simp only [Printed, List.mem_cons, List.not_mem_nil, or_false] at hl hm
      rcases hl with rfl | rfl <;> rcases hm with rfl | rfl <;>
        first | rfl | (exfalso; revert hk; simp only [kind]; decide +kernel)
    subst e
    simp only [content_panId, List.append_assoc] at h
    have h := hex_inj (List.append_cancel_left (List.append_cancel_left h))
    rw [BitVec.eq_of_toNat_eq h]; exact .refl _
  case address.address s a b s' a' b' =>
    have e : s = s' := by
      simp only [Printed, List.mem_cons, List.not_mem_nil, or_false] at hl hm
      rcases hl with rfl | rfl <;> rcases hm with rfl | rfl <;>
        first | rfl | (exfalso; revert hk; simp only [kind]; decide +kernel)
    subst e
    simp only [content_address, List.append_assoc] at h
    have h := List.append_cancel_left (List.append_cancel_left h)
    obtain ⟨e1, e2⟩ := address_inj h
    rw [e1, e2]; exact .refl _
  case timeCorrection.timeCorrection t n t' n' =>
    simp only [content_timeCorrection, List.append_assoc] at h
    obtain ⟨h1, -, h2⟩ := split_at IsNum (s := ',') (s' := ',') (y := " nack: ".toList ++ Text.bit n)
      (y' := " nack: ".toList ++ Text.bit n') (duration_chars t) (duration_chars t')
      not_num_comma not_num_comma h
    rw [bit_inj (List.append_cancel_left h2)]
    exact .time _ h1
  case synchronization.synchronization a j a' j' =>
    simp only [content_synchronization, List.append_assoc] at h
    obtain ⟨h1, h2⟩ := dec_split (s := ',') (s' := ',') (y := " join metric: ".toList ++ dec j.toNat)
      (y' := " join metric: ".toList ++ dec j'.toNat) not_dig_comma not_dig_comma
      (List.append_cancel_left h)
    rw [BitVec.eq_of_toNat_eq h1, byte_inj (List.append_cancel_left h2)]; exact .refl _
  case timeslot.timeslot a b =>
    simp only [content_timeslot] at h
    rw [byte_inj (List.append_cancel_left h)]; exact .refl _
  case slotframes.slotframes a b =>
    simp only [content_slotframes] at h
    rw [byte_inj (List.append_cancel_left h)]; exact .refl _
  case slotframe.slotframe a j a' j' =>
    simp only [content_slotframe, List.append_assoc] at h
    obtain ⟨h1, h2⟩ := dec_split (s := ',') (s' := ',') (y := " #links: ".toList ++ dec j.toNat)
      (y' := " #links: ".toList ++ dec j'.toNat) not_dig_comma not_dig_comma
      (List.append_cancel_left h)
    rw [BitVec.eq_of_toNat_eq h1, byte_inj (List.append_cancel_left h2)]; exact .refl _
  case link.link t c o t' c' o' =>
    simp only [content_link, List.append_assoc] at h
    obtain ⟨h1, h2⟩ := dec_split (s := ',') (s' := ',')
      (y := " Channel Offset: ".toList ++ (dec c.toNat ++ (", Link Options: ".toList ++ linkOptions o)))
      (y' := " Channel Offset: ".toList ++ (dec c'.toNat ++ (", Link Options: ".toList ++ linkOptions o')))
      not_dig_comma not_dig_comma (List.append_cancel_left h)
    obtain ⟨h3, h4⟩ := dec_split (s := ',') (s' := ',') (y := " Link Options: ".toList ++ linkOptions o)
      (y' := " Link Options: ".toList ++ linkOptions o') not_dig_comma not_dig_comma
      (List.append_cancel_left h2)
    rw [BitVec.eq_of_toNat_eq h1, BitVec.eq_of_toNat_eq h3,
      linkOptions_inj hl hm (List.append_cancel_left h4)]; exact .refl _
  case channelHopping.channelHopping a b =>
    simp only [content_channelHopping] at h
    rw [byte_inj (List.append_cancel_left h)]; exact .refl _
  case payload.payload a b =>
    simp only [content_payload] at h
    rw [bytes_inj h]; exact .refl _

/-! ## Rows of text -/

/-- A row: indentation and text. -/
abbrev Row := Nat × Chars

/-- The times of the timings with their labels. -/
def timingRows (t : TschTimeslotTimings) : List (Chars × Duration) :=
  [("cca_offset: ".toList, t.ccaOffset), ("cca: ".toList, t.cca), ("tx offset: ".toList, t.txOffset),
   ("rx offset: ".toList, t.rxOffset), ("tx ack delay: ".toList, t.txAckDelay),
   ("rx ack delay: ".toList, t.rxAckDelay), ("rx wait: ".toList, t.rxWait), ("ack wait: ".toList, t.ackWait),
   ("rx/tx: ".toList, t.rxTx), ("max ack: ".toList, t.maxAck), ("max tx: ".toList, t.maxTx),
   ("timeslot length: ".toList, t.timeslotLength)]

/-- The rows of a line. -/
def rows : Nat × Cat.Line → List Row
  | (n, .timings t) => (timingRows t).map fun r => (n, r.1 ++ Text.duration r.2)
  | (n, l) => [(n, content l)]

/-- The text of rows. -/
def unrows : List Row → Chars
  | [] => []
  | r :: l => spaces r.1 ++ (r.2 ++ '\n' :: unrows l)

theorem unrows_append (a b : List Row) : unrows (a ++ b) = unrows a ++ unrows b := by
  induction a with
  | nil => rfl
  | cons r a ih => simp [unrows, ih]

theorem line_rows (l : Nat × Cat.Line) : Text.line l = unrows (rows l) := by
  obtain ⟨n, l⟩ := l
  cases l with
  | timings t =>
    show spaces n ++ Text.timings n t = unrows ((timingRows t).map fun r => (n, r.1 ++ Text.duration r.2))
    simp only [timingRows, List.map_cons, List.map_nil]
    unfold Text.timings
    generalize Text.duration = f, "cca_offset: ".toList = s1, "cca: ".toList = s2, "tx offset: ".toList = s3,
      "rx offset: ".toList = s4, "tx ack delay: ".toList = s5, "rx ack delay: ".toList = s6,
      "rx wait: ".toList = s7, "ack wait: ".toList = s8, "rx/tx: ".toList = s9, "max ack: ".toList = s10,
      "max tx: ".toList = s11, "timeslot length: ".toList = s12
    simp only [unrows, List.append_assoc, List.cons_append, List.nil_append]
  | _ => exact List.append_assoc _ _ _

theorem lines_rows (l : List (Nat × Cat.Line)) : Text.lines l = unrows (l.flatMap rows) := by
  induction l with
  | nil => rfl
  | cons a l ih => rw [Text.lines, ih, List.flatMap_cons, unrows_append, line_rows]

/-- Rows that begin with something visible and have no line break. -/
def Clean (r : Row) : Prop := (∃ c t, r.2 = c :: t ∧ c ≠ ' ') ∧ '\n' ∉ r.2

theorem spaces_split {n m : Nat} {c d : Char} {x y : Chars} (hc : c ≠ ' ') (hd : d ≠ ' ')
    (h : spaces n ++ c :: x = spaces m ++ d :: y) : n = m ∧ c :: x = d :: y := by
  obtain ⟨a, b, e⟩ := split_at (· = ' ') (x := spaces n) (x' := spaces m)
    (fun c hc => List.eq_of_mem_replicate hc) (fun c hc => List.eq_of_mem_replicate hc) hc hd h
  have : (spaces n).length = (spaces m).length := by rw [a]
  simp only [spaces, List.length_replicate] at this
  exact ⟨this, by rw [b, e]⟩

theorem unrows_inj {a b : List Row} (ha : ∀ r ∈ a, Clean r) (hb : ∀ r ∈ b, Clean r)
    (h : unrows a = unrows b) : a = b := by
  induction a generalizing b with
  | nil =>
    cases b with
    | nil => rfl
    | cons r b => simp [unrows] at h
  | cons r a ih =>
    cases b with
    | nil => simp [unrows] at h
    | cons q b =>
      obtain ⟨⟨c, t, e, hc⟩, hn⟩ := ha r (by simp)
      obtain ⟨⟨d, u, e', hd⟩, hn'⟩ := hb q (by simp)
      simp only [unrows, e, e', List.cons_append] at h
      obtain ⟨h1, h2⟩ := spaces_split hc hd h
      rw [← List.cons_append, ← List.cons_append, ← e, ← e'] at h2
      obtain ⟨h3, -, h4⟩ := split_at (· ≠ '\n') (fun c hc e => hn (e ▸ hc)) (fun c hc e => hn' (e ▸ hc))
        (by simp) (by simp) h2
      rw [ih (fun r hr => ha r (by simp [hr])) (fun r hr => hb r (by simp [hr])) h4]
      have : r = q := Prod.ext h1 h3
      rw [this]

/-- Begins visibly, no line break. -/
def Vis (t : Chars) : Prop := (∃ c u, t = c :: u ∧ c ≠ ' ') ∧ '\n' ∉ t

theorem Vis.append {a b : Chars} (h : Vis a) (hb : '\n' ∉ b) : Vis (a ++ b) := by
  obtain ⟨⟨c, u, e, hc⟩, hn⟩ := h
  exact ⟨⟨c, u ++ b, by rw [e]; rfl, hc⟩, by simp only [List.mem_append]; rintro (h | h); exacts [hn h, hb h]⟩

/-- `Vis`, decided. -/
def visB : Chars → Bool
  | [] => false
  | c :: u => c ≠ ' ' && !((c :: u).contains '\n')

theorem vis_of {t : Chars} (h : visB t = true) : Vis t := by
  cases t with
  | nil => simp [visB] at h
  | cons c u =>
    simp only [visB, Bool.and_eq_true, Bool.not_eq_true', decide_eq_true_eq, ne_eq] at h
    refine ⟨⟨c, u, rfl, h.1⟩, fun hm => ?_⟩
    have := List.contains_iff_mem.2 hm
    rw [h.2] at this; cases this

theorem digits_nl {t : Chars} (h : ∀ c ∈ t, IsDig c) : '\n' ∉ t := fun hm => by
  have := h _ hm
  revert this; decide

theorem dec_nl (n : Nat) : '\n' ∉ dec n := digits_nl (dec_digits n)
theorem hex_nl (n : Nat) : '\n' ∉ hex n := digits_nl (hex_digits n)

theorem duration_nl (d : Duration) : '\n' ∉ Text.duration d := fun hm => by
  have := duration_chars d _ hm
  revert this; decide

theorem more_nl : ∀ l : Bytes, '\n' ∉ more l
  | [] => by decide
  | b :: l => by
    have := more_nl l
    have := hex_nl b.toNat
    simp only [more, List.mem_cons, List.mem_append]
    rintro (h | h | h | h)
    · revert h; decide
    · revert h; decide
    · contradiction
    · contradiction

theorem bit_nl (b : Bool) : '\n' ∉ Text.bit b := dec_nl _

theorem app_nl {a b : Chars} (ha : '\n' ∉ a) (hb : '\n' ∉ b) : '\n' ∉ a ++ b := by
  simp only [List.mem_append]; rintro (h | h); exacts [ha h, hb h]

theorem linkOptions_nl (o : Byte) : '\n' ∉ linkOptions o := by
  have : ∀ o : Byte, (linkOptions o).contains '\n' = false := by decide +kernel
  intro h
  have h2 := List.contains_iff_mem.2 h
  rw [this o] at h2; cases h2

theorem content_vis (l : Cat.Line) (h : Printed l) : Vis (content l) := by
  have hw : ∀ l ∈ words ++ unknownIds, visB (content l) = true := by decide +kernel
  by_cases hg : groupOf l = 103
  · exact vis_of (hw l (List.mem_append.2 (word_cases l h hg)))
  cases l <;> first | exact absurd rfl hg | skip
  case sequenceNumber n =>
    rw [content_sequenceNumber]
    exact (vis_of (by decide +kernel)).append (dec_nl _)
  case panId s v =>
    rw [content_panId]
    simp only [Printed, List.mem_cons, List.not_mem_nil, or_false] at h
    rcases h with rfl | rfl <;> exact (vis_of (by decide +kernel)).append (hex_nl _)
  case address s v b =>
    rw [content_address, List.append_assoc]
    have : '\n' ∉ v.display ++ (if b then " (broadcast)".toList else []) := by
      apply app_nl
      · exact fun h => (display_chars v _ h).2 rfl
      · cases b <;> decide +kernel
    simp only [Printed, List.mem_cons, List.not_mem_nil, or_false] at h
    rcases h with rfl | rfl <;> exact (vis_of (by decide +kernel)).append this
  case timeCorrection t n =>
    rw [content_timeCorrection, List.append_assoc]
    obtain ⟨c, u, e, hc⟩ := duration_head t
    refine Vis.append ⟨⟨c, u, e, ?_⟩, duration_nl t⟩ (app_nl (by decide +kernel) (bit_nl n))
    rintro rfl
    rcases hc with hc | hc
    · revert hc; decide
    · revert hc; decide
  case synchronization a j =>
    rw [content_synchronization, List.append_assoc, List.append_assoc]
    exact (vis_of (by decide +kernel)).append (app_nl (dec_nl _) (app_nl (by decide +kernel) (dec_nl _)))
  case timeslot i =>
    rw [content_timeslot]
    exact (vis_of (by decide +kernel)).append (dec_nl _)
  case slotframes i =>
    rw [content_slotframes]
    exact (vis_of (by decide +kernel)).append (dec_nl _)
  case slotframe a j =>
    rw [content_slotframe, List.append_assoc, List.append_assoc]
    exact (vis_of (by decide +kernel)).append (app_nl (dec_nl _) (app_nl (by decide +kernel) (dec_nl _)))
  case link t c o =>
    rw [content_link]
    simp only [List.append_assoc]
    exact (vis_of (by decide +kernel)).append (app_nl (dec_nl _) (app_nl (by decide +kernel)
      (app_nl (dec_nl _) (app_nl (by decide +kernel) (linkOptions_nl o)))))
  case channelHopping i =>
    rw [content_channelHopping]
    exact (vis_of (by decide +kernel)).append (dec_nl _)
  case payload b =>
    rw [content_payload]
    cases b with
    | nil => exact vis_of (by decide +kernel)
    | cons b l =>
      exact Vis.append (a := ['[']) (vis_of (by decide +kernel)) (app_nl (hex_nl _) (more_nl _))
  case timings t => exact h.elim

/-- Every line the decoder prints. -/
def PrintedLine : Cat.Line → Prop
  | .timings _ => True
  | l => Printed l

theorem PrintedLine.cases {l : Cat.Line} (h : PrintedLine l) : Printed l ∨ ∃ t, l = .timings t := by
  cases l <;> first | exact .inl h | exact .inr ⟨_, rfl⟩

theorem rows_printed (n : Nat) {l : Cat.Line} (h : Printed l) : rows (n, l) = [(n, content l)] := by
  cases l <;> first | exact h.elim | exact Eq.refl _

theorem labels_vis : ∀ t : TschTimeslotTimings, ∀ r ∈ timingRows t, Vis r.1 := by
  intro t r hr
  simp only [timingRows, List.mem_cons, List.not_mem_nil, or_false] at hr
  rcases hr with rfl | rfl | rfl | rfl | rfl | rfl | rfl | rfl | rfl | rfl | rfl | rfl <;>
    exact vis_of (by dsimp only; decide +kernel)

theorem rows_clean {l : Nat × Cat.Line} (h : PrintedLine l.2) : ∀ r ∈ rows l, Clean r := by
  obtain ⟨n, l⟩ := l
  rcases h.cases with h | ⟨t, rfl⟩
  · rw [rows_printed n h]
    intro r hr
    rw [List.mem_singleton] at hr; subst hr
    exact content_vis l h
  · intro r hr
    obtain ⟨q, hq, rfl⟩ := List.mem_map.1 (show r ∈ (timingRows t).map fun r => (n, r.1 ++ Text.duration r.2) from hr)
    exact (labels_vis t q hq).append (duration_nl q.2)

/-- Text determines the lines. -/
theorem lines_inj {l m : List (Nat × Cat.Line)} (hl : ∀ x ∈ l, PrintedLine x.2)
    (hm : ∀ x ∈ m, PrintedLine x.2) (h : Text.lines l = Text.lines m) :
    List.Forall₂ (fun a b => a.1 = b.1 ∧ Alike a.2 b.2) l m := by
  rw [lines_rows, lines_rows] at h
  replace h := unrows_inj
    (fun r hr => by obtain ⟨x, hx, hr⟩ := List.mem_flatMap.1 hr; exact rows_clean (hl x hx) r hr)
    (fun r hr => by obtain ⟨x, hx, hr⟩ := List.mem_flatMap.1 hr; exact rows_clean (hm x hx) r hr) h
  have hne : ∀ x : Nat × Cat.Line, PrintedLine x.2 → ∃ r q, rows x = r :: q := by
    rintro ⟨n, x⟩ hx
    rcases hx.cases with hx | ⟨t, rfl⟩
    · exact ⟨_, _, rows_printed n hx⟩
    · exact ⟨_, _, rfl⟩
  have hk : ∀ x : Cat.Line, Printed x → kindOf (content x) ≠ 26 := by
    intro x hx e
    have h1 := group_kind x hx
    rw [← kindOf_content x hx, e] at h1
    revert h1
    cases x <;> (simp only [groupOf]; decide)
  have hkt : ∀ d : Duration, kindOf ("cca_offset: ".toList ++ Text.duration d) = 26 := by
    intro d
    rw [kindOf_append _ _ (by decide +kernel)]; decide +kernel
  induction l generalizing m with
  | nil =>
    cases m with
    | nil => exact .nil
    | cons y m =>
      obtain ⟨r, q, e⟩ := hne y (hm y (by simp))
      simp [e] at h
  | cons x l ih =>
    cases m with
    | nil =>
      obtain ⟨r, q, e⟩ := hne x (hl x (by simp))
      simp [e] at h
    | cons y m =>
      have ih := fun h => ih (m := m) (fun x hx => hl x (by simp [hx])) (fun x hx => hm x (by simp [hx])) h
      have px := hl x (by simp)
      have py := hm y (by simp)
      obtain ⟨n, x⟩ := x
      obtain ⟨n', y⟩ := y
      rw [List.flatMap_cons, List.flatMap_cons] at h
      rcases px.cases with hx | ⟨t, rfl⟩ <;> rcases py.cases with hy | ⟨t', rfl⟩
      · rw [rows_printed _ hx, rows_printed _ hy] at h
        simp only [List.cons_append, List.nil_append, List.cons.injEq, Prod.mk.injEq] at h
        exact .cons ⟨h.1.1, content_inj hx hy h.1.2⟩ (ih h.2)
      · exfalso
        rw [rows_printed _ hx] at h
        simp only [rows, timingRows, List.map_cons, List.cons_append, List.nil_append, List.cons.injEq,
          Prod.mk.injEq] at h
        exact hk x hx (h.1.2 ▸ hkt _)
      · exfalso
        rw [rows_printed _ hy] at h
        simp only [rows, timingRows, List.map_cons, List.cons_append, List.nil_append, List.cons.injEq,
          Prod.mk.injEq] at h
        exact hk y hy (h.1.2 ▸ hkt _)
      · simp only [rows, timingRows, List.map_cons, List.map_nil, List.cons_append, List.nil_append,
          List.cons.injEq, Prod.mk.injEq, List.append_cancel_left_eq] at h
        refine .cons ⟨h.1.1, .timings ?_⟩ (ih ?_)
        · simp only [List.map_cons, List.map_nil, List.cons.injEq, h, and_true]
        · simp only [h]

/-! ## Every line the decoder prints -/

/-- Lines shown for information elements. -/
def ElementLine : Cat.Line → Prop
  | .text s => s ∈ ["Information Elements", "Header Information Elements", "Payload Information Elements",
      "invalid", "unimplemented", "MLME"]
  | .headerElement _ | .nestedElement _ | .timeCorrection _ _ | .synchronization _ _ | .timeslot _
  | .timings _ | .slotframes _ | .slotframe _ _ | .channelHopping _ | .otherGroup _ => True
  | .link _ _ o => o &&& 0x1f = o
  | _ => False

theorem ElementLine.printed {l : Cat.Line} (h : ElementLine l) : PrintedLine l := by
  cases l <;> first | exact h.elim | exact h | trivial | skip
  case text s =>
    simp only [ElementLine, List.mem_cons, List.not_mem_nil, or_false] at h
    rcases h with rfl | rfl | rfl | rfl | rfl | rfl <;> simp [PrintedLine, Printed, headings]

/-- All lines are such. -/
abbrev AllLines (P : Cat.Line → Prop) (L : List (Nat × Cat.Line)) : Prop := ∀ x ∈ L, P x.2

theorem AllLines.shift {P : Cat.Line → Prop} {L : List (Nat × Cat.Line)} (h : AllLines P L) (n : Nat) :
    AllLines P (shift n L) := by
  intro x hx
  obtain ⟨y, hy, rfl⟩ := List.mem_map.1 hx
  exact h y hy

theorem AllLines.cons {P : Cat.Line → Prop} {L : List (Nat × Cat.Line)} {n : Nat} {l : Cat.Line} (hl : P l)
    (h : AllLines P L) : AllLines P ((n, l) :: L) := by
  intro x hx
  rcases List.mem_cons.1 hx with rfl | hx
  · exact hl
  · exact h x hx

theorem AllLines.nil {P : Cat.Line → Prop} : AllLines P [] := fun _ h => by cases h

theorem AllLines.append {P : Cat.Line → Prop} {L M : List (Nat × Cat.Line)} (h : AllLines P L)
    (h' : AllLines P M) : AllLines P (L ++ M) := by
  intro x hx
  rcases List.mem_append.1 hx with hx | hx
  · exact h x hx
  · exact h' x hx

theorem AllLines.each {α : Type} {P : Cat.Line → Prop} {R : α → List (Nat × Cat.Line) → Prop}
    (hR : ∀ a L, R a L → AllLines P L) {l : List α} {Ls : List (List (Nat × Cat.Line))} (h : Each R l Ls) :
    AllLines P Ls.flatten := by
  induction h with
  | nil => exact AllLines.nil
  | cons h _ ih => exact AllLines.append (hR _ _ h) ih

theorem linkOptions_masked {k : LinkInformation} {o : Byte} (h : LinkInformation.linkOptions k = .ok o) :
    o &&& 0x1f = o := by
  simp only [LinkInformation.linkOptions, bind_eq_ok] at h
  obtain ⟨x, -, h⟩ := h
  simp only [ok.injEq] at h
  subst h
  have : ∀ x : Byte, (x &&& 0x1f) &&& 0x1f = x &&& 0x1f := by decide
  exact this x

theorem elementLines {ie : Option InformationElements} {E : List (Nat × Cat.Line)} (h : ElementsShown ie E) :
    AllLines ElementLine E := by
  have tl : ∀ s ∈ ["Information Elements", "Header Information Elements", "Payload Information Elements",
      "invalid", "unimplemented", "MLME"], ElementLine (.text s) := fun s h => h
  cases ie with
  | none => rw [show E = [] from h]; exact AllLines.nil
  | some ie =>
    obtain ⟨hi, he, pi, pe, M, N, -, -, hM, hN, rfl⟩ := h
    refine AllLines.cons (tl _ (by simp)) (AllLines.append ?_ ?_)
    · rcases hM with ⟨-, rfl⟩ | ⟨-, Ls, hL, rfl⟩
      · exact AllLines.nil
      · refine AllLines.cons (tl _ (by simp)) (AllLines.shift (AllLines.each ?_ hL) _)
        rintro i L ⟨id, -, (⟨-, rfl⟩ | ⟨-, l, rfl, hl⟩)⟩
        · exact AllLines.cons trivial AllLines.nil
        · refine AllLines.cons trivial (AllLines.cons ?_ AllLines.nil)
          rcases hl with ⟨-, rfl⟩ | ⟨-, c, -, (⟨-, rfl⟩ | ⟨t, n, -, -, -, rfl⟩)⟩
          · exact tl _ (by simp)
          · exact tl _ (by simp)
          · trivial
    · rcases hN with ⟨-, rfl⟩ | ⟨-, Ls, hL, rfl⟩
      · exact AllLines.nil
      · refine AllLines.cons (tl _ (by simp)) (AllLines.shift (AllLines.each ?_ hL) _)
        rintro i L ⟨g, -, (⟨-, rfl⟩ | ⟨-, q, cs, e, Ks, -, -, hK, rfl⟩)⟩
        · exact AllLines.cons trivial AllLines.nil
        · refine AllLines.cons (tl _ (by simp)) (AllLines.shift (AllLines.each ?_ hK) _)
          rintro i L ⟨id, c, M, -, -, hs, rfl⟩
          refine AllLines.cons trivial (AllLines.shift ?_ _)
          unfold NestedShown at hs
          split at hs
          · rcases hs with ⟨-, rfl⟩ | ⟨_, _, -, -, -, rfl⟩
            · exact AllLines.cons (tl _ (by simp)) AllLines.nil
            · exact AllLines.cons trivial AllLines.nil
          · rcases hs with ⟨-, rfl⟩ | ⟨_, -, -, (⟨-, rfl⟩ | ⟨-, _, -, rfl⟩)⟩
            · exact AllLines.cons (tl _ (by simp)) AllLines.nil
            · exact AllLines.cons trivial AllLines.nil
            · exact AllLines.cons trivial (AllLines.cons trivial AllLines.nil)
          · rcases hs with ⟨-, rfl⟩ | ⟨_, _, _, Js, -, -, -, hJ, rfl⟩
            · exact AllLines.cons (tl _ (by simp)) AllLines.nil
            · refine AllLines.cons trivial (AllLines.each ?_ hJ)
              rintro t L ⟨_, _, _, _, _, Is, -, -, -, -, hI, rfl⟩
              refine AllLines.cons trivial (AllLines.shift (AllLines.each ?_ hI) _)
              rintro k L ⟨_, _, _, -, -, ho, rfl⟩
              exact AllLines.cons (linkOptions_masked ho) AllLines.nil
          · rcases hs with ⟨-, rfl⟩ | ⟨_, -, -, rfl⟩
            · exact AllLines.cons (tl _ (by simp)) AllLines.nil
            · exact AllLines.cons trivial AllLines.nil
          · rw [hs]; exact AllLines.cons (tl _ (by simp)) AllLines.nil

theorem describes_printed {f : Frame} {L : List (Nat × Cat.Line)} (h : Describes f L) :
    AllLines PrintedLine L := by
  obtain ⟨o0, o1, seq, aux, ie, p, A, E, -, -, -, -, -, hA, hE, rfl⟩ := h
  have pn : ∀ s o, s ∈ ["dst pan id", "src pan id"] → AllLines PrintedLine (panLines s o) := by
    intro s o hs
    cases o with
    | none => exact AllLines.nil
    | some v => exact AllLines.cons hs AllLines.nil
  have an : ∀ s o, s ∈ ["dst addr", "src addr"] → AllLines PrintedLine (addrLines s o) := by
    intro s o hs
    cases o with
    | none => exact AllLines.nil
    | some v => exact AllLines.cons hs AllLines.nil
  have tl : ∀ s ∈ headings, PrintedLine (.text s) := fun s h => h
  have bl : ∀ s ∈ bitLabels, ∀ b, PrintedLine (.bit s b) := fun s h b => h
  have ml : ∀ s ∈ ["dst addressing mode", "src addressing mode"], ∀ b, PrintedLine (.mode s b) :=
    fun s h b => h
  refine AllLines.append (AllLines.append (AllLines.append (AllLines.append (AllLines.append ?_ ?_) ?_) ?_) ?_) ?_
  · exact AllLines.cons (tl _ (by decide)) (AllLines.cons trivial (AllLines.cons (bl _ (by decide) _)
      (AllLines.cons (bl _ (by decide) _) (AllLines.cons (bl _ (by decide) _)
      (AllLines.cons (bl _ (by decide) _) (AllLines.cons (bl _ (by decide) _)
      (AllLines.cons (bl _ (by decide) _) (AllLines.cons (ml _ (by decide) _)
      (AllLines.cons (ml _ (by decide) _) (AllLines.cons trivial AllLines.nil))))))))))
  · cases seq with
    | none => exact AllLines.nil
    | some n => exact AllLines.cons (tl _ (by decide)) (AllLines.cons trivial AllLines.nil)
  · rcases hA with ⟨-, rfl⟩ | ⟨af, dp, d, sp, s, -, -, rfl⟩
    · exact AllLines.nil
    · exact AllLines.cons (tl _ (by decide)) (AllLines.shift (AllLines.append (AllLines.append
        (AllLines.append (pn _ _ (by decide)) (an _ _ (by decide))) (pn _ _ (by decide)))
        (an _ _ (by decide))) _)
  · cases aux with
    | none => exact AllLines.nil
    | some n => exact AllLines.cons (tl _ (by decide)) (AllLines.cons (tl _ (by decide)) AllLines.nil)
  · exact fun x hx => (elementLines hE x hx).printed
  · cases p with
    | none => exact AllLines.nil
    | some n => exact AllLines.cons (tl _ (by decide)) (AllLines.cons trivial AllLines.nil)

/-! ## The text determines what is shown -/

/-- **C75.** Two frames printed as the same text are printed as the same lines, up to the rounding of times
and which of the unknown ids is meant. -/
theorem C75_lines {b b' : Bytes} {L L' : List (Nat × Cat.Line)} (h : Cat.parse b = .ok L)
    (h' : Cat.parse b' = .ok L') (ht : Text.lines L = Text.lines L') :
    List.Forall₂ (fun x y => x.1 = y.1 ∧ Alike x.2 y.2) L L' := by
  have key : ∀ {b L}, Cat.parse b = .ok L → AllLines PrintedLine L := by
    intro b L h
    rcases C54_exact b with ⟨f, -, -, M, h1, h2⟩ | ⟨-, h1⟩
    · rw [h1, ok.injEq] at h; subst h; exact describes_printed h2
    · rw [h1] at h; cases h
  exact lines_inj (key h) (key h') ht

/-- The values some lines have. -/
def pick {α : Type} (p : Cat.Line → Option α) (L : List (Nat × Cat.Line)) : List α :=
  L.filterMap fun x => p x.2

/-- A value not touched by what is alike. -/
def Plain {α : Type} (p : Cat.Line → Option α) : Prop := ∀ l, ElementLine l → p l = none

theorem pick_alike {α : Type} {p : Cat.Line → Option α} (hp : Plain p) {L M : List (Nat × Cat.Line)}
    (h : List.Forall₂ (fun x y => x.1 = y.1 ∧ Alike x.2 y.2) L M) : pick p L = pick p M := by
  have hu : ∀ l ∈ unknownIds, p l = none := by
    intro l hl
    simp only [unknownIds, List.mem_cons, List.not_mem_nil, or_false] at hl
    rcases hl with rfl | rfl | rfl <;> exact hp _ trivial
  have ht : ∀ t n, p (.timeCorrection t n) = none := fun _ _ => hp _ trivial
  have htt : ∀ t, p (.timings t) = none := fun _ => hp _ trivial
  have key : ∀ {l m}, Alike l m → p l = p m := by
    intro l m h
    cases h with
    | refl => rfl
    | time => rw [ht, ht]
    | timings => rw [htt, htt]
    | unknown h1 h2 => rw [hu _ h1, hu _ h2]
  induction h with
  | nil => rfl
  | cons h _ ih =>
    simp only [pick, List.filterMap_cons, key h.2]
    unfold pick at ih
    rw [ih]

theorem pick_append {α : Type} (p : Cat.Line → Option α) (L M : List (Nat × Cat.Line)) :
    pick p (L ++ M) = pick p L ++ pick p M := List.filterMap_append

theorem pick_cons {α : Type} (p : Cat.Line → Option α) (n : Nat) (l : Cat.Line) (M : List (Nat × Cat.Line)) :
    pick p ((n, l) :: M) = (p l).toList ++ pick p M := by
  simp only [pick, List.filterMap_cons]
  cases p l <;> rfl

theorem pick_nil {α : Type} (p : Cat.Line → Option α) : pick p [] = [] := rfl

theorem pick_none {α : Type} {p : Cat.Line → Option α} {L : List (Nat × Cat.Line)}
    (h : AllLines (fun l => p l = none) L) : pick p L = [] := List.filterMap_eq_nil_iff.2 h

theorem pick_shift {α : Type} (p : Cat.Line → Option α) (n : Nat) (L : List (Nat × Cat.Line)) :
    pick p (shift n L) = pick p L := by
  simp only [pick, shift, List.filterMap_map]
  rfl

/-- Lines of the frame control field. -/
def fcValue : Cat.Line → Option Cat.Line
  | .frameType e t => some (.frameType e t)
  | .bit s b => some (.bit s b)
  | .mode s b => some (.mode s b)
  | .version b => some (.version b)
  | _ => none

/-- The sequence number. -/
def seqValue : Cat.Line → Option Byte
  | .sequenceNumber n => some n
  | _ => none

/-- A PAN id. -/
def panValue (s : String) : Cat.Line → Option (BitVec 16)
  | .panId s' v => if s' = s then some v else none
  | _ => none

/-- An address. -/
def addrValue (s : String) : Cat.Line → Option Address
  | .address s' v _ => if s' = s then some v else none
  | _ => none

/-- The payload. -/
def payloadValue : Cat.Line → Option Bytes
  | .payload v => some v
  | _ => none

/-- A heading. -/
def headingValue (s : String) : Cat.Line → Option Unit
  | .text s' => if s' = s then some () else none
  | _ => none

theorem plain_fc : Plain fcValue := by intro l h; cases l <;> first | rfl | exact h.elim
theorem plain_seq : Plain seqValue := by intro l h; cases l <;> first | rfl | exact h.elim
theorem plain_pan (s : String) : Plain (panValue s) := by intro l h; cases l <;> first | rfl | exact h.elim
theorem plain_addr (s : String) : Plain (addrValue s) := by intro l h; cases l <;> first | rfl | exact h.elim
theorem plain_payload : Plain payloadValue := by intro l h; cases l <;> first | rfl | exact h.elim
theorem plain_heading : Plain (headingValue "Addressing") := by
  intro l h
  cases l <;> first | rfl | skip
  case text s =>
    simp only [ElementLine, List.mem_cons, List.not_mem_nil, or_false] at h
    rcases h with rfl | rfl | rfl | rfl | rfl | rfl <;> decide

/-- The frame control field, from its lines. -/
theorem fcLines_inj {fc fc' : FrameControlRepr} (h : pick fcValue (fcLines fc) = pick fcValue (fcLines fc')) :
    fc = fc' := by
  cases fc; cases fc'
  simp [pick, fcLines, fcValue] at h
  simp [h]

/-- The header of a frame. -/
structure Header where
  fc : FrameControlRepr
  seq : Option Byte
  /-- PAN id and address of destination and source, if there is an addressing field. -/
  addressing : Option (Option (BitVec 16) × Option Address × Option (BitVec 16) × Option Address)
  payload : Option Bytes
  deriving DecidableEq

/-- The accessors of the frame return this header. -/
def HasHeader (f : Frame) (x : Header) : Prop :=
  (∃ o0 o1, f.frameControl = .ok [o0, o1] ∧ decodeFc o0 o1 = x.fc) ∧ f.sequenceNumber = .ok x.seq ∧
  f.payload = .ok x.payload ∧
  match x.addressing with
  | none => f.addressing = .ok none
  | some (dp, d, sp, s) => ∃ af, f.addressing = .ok (some af) ∧ af.dstPanId = .ok dp ∧
      af.dstAddress = .ok d ∧ af.srcPanId = .ok sp ∧ af.srcAddress = .ok s

/-- The lines of the addressing fields. -/
def addrPart : Option (Option (BitVec 16) × Option Address × Option (BitVec 16) × Option Address) →
    List (Nat × Cat.Line)
  | none => []
  | some (dp, d, sp, s) => addressingLines dp d sp s

theorem describes_header {f : Frame} {L : List (Nat × Cat.Line)} (h : Describes f L) :
    ∃ x aux E, HasHeader f x ∧ AllLines ElementLine E ∧
      L = fcLines x.fc ++ seqLines x.seq ++ addrPart x.addressing ++ securityLines aux ++ E ++
        payloadLines x.payload := by
  obtain ⟨o0, o1, seq, aux, ie, p, A, E, h1, h2, -, -, h5, hA, hE, rfl⟩ := h
  rcases hA with ⟨h3, rfl⟩ | ⟨af, dp, d, sp, s, h3, hr, rfl⟩
  · exact ⟨⟨decodeFc o0 o1, seq, none, p⟩, aux, E, ⟨⟨o0, o1, h1, rfl⟩, h2, h5, h3⟩, elementLines hE, rfl⟩
  · exact ⟨⟨decodeFc o0 o1, seq, some (dp, d, sp, s), p⟩, aux, E,
      ⟨⟨o0, o1, h1, rfl⟩, h2, h5, af, h3, hr.1, hr.2.1, hr.2.2.1, hr.2.2.2⟩, elementLines hE, rfl⟩

theorem toList_inj {α : Type} {a b : Option α} (h : a.toList = b.toList) : a = b := by
  cases a <;> cases b <;> simp_all

/-- The values in the lines of a header. -/
theorem header_values (x : Header) (aux : Option AuxSecHeader) {E : List (Nat × Cat.Line)}
    (hE : AllLines ElementLine E) {L : List (Nat × Cat.Line)}
    (hL : L = fcLines x.fc ++ seqLines x.seq ++ addrPart x.addressing ++ securityLines aux ++ E ++
        payloadLines x.payload) :
    pick fcValue L = pick fcValue (fcLines x.fc) ∧ pick seqValue L = x.seq.toList ∧
    pick payloadValue L = x.payload.toList ∧
    pick (headingValue "Addressing") L = (if x.addressing.isSome then [()] else []) ∧
    pick (panValue "dst pan id") L = (x.addressing.bind (·.1)).toList ∧
    pick (addrValue "dst addr") L = (x.addressing.bind (·.2.1)).toList ∧
    pick (panValue "src pan id") L = (x.addressing.bind (·.2.2.1)).toList ∧
    pick (addrValue "src addr") L = (x.addressing.bind (·.2.2.2)).toList := by
  subst hL
  have e : ∀ {α : Type} {p : Cat.Line → Option α}, Plain p → pick p E = [] :=
    fun hp => pick_none fun y hy => hp _ (hE y hy)
  obtain ⟨fc, seq, ad, pl⟩ := x
  simp only [pick_append, e plain_fc, e plain_seq, e plain_payload, e plain_heading, e (plain_pan _),
    e (plain_addr _)]
  have a1 : ∀ s o, pick fcValue (panLines s o) = [] ∧ pick seqValue (panLines s o) = [] ∧
      pick payloadValue (panLines s o) = [] ∧ pick (headingValue "Addressing") (panLines s o) = [] ∧
      (∀ s', pick (addrValue s') (panLines s o) = []) ∧
      ∀ s', pick (panValue s') (panLines s o) = if s = s' then o.toList else [] := by
    intro s o
    cases o with
    | none => exact ⟨rfl, rfl, rfl, rfl, fun _ => rfl, fun _ => by split <;> rfl⟩
    | some v =>
      refine ⟨rfl, rfl, rfl, rfl, fun _ => rfl, fun s' => ?_⟩
      simp only [panLines, pick_cons, pick_nil, panValue, List.append_nil]
      split <;> rfl
  have a2 : ∀ s o, pick fcValue (addrLines s o) = [] ∧ pick seqValue (addrLines s o) = [] ∧
      pick payloadValue (addrLines s o) = [] ∧ pick (headingValue "Addressing") (addrLines s o) = [] ∧
      (∀ s', pick (panValue s') (addrLines s o) = []) ∧
      ∀ s', pick (addrValue s') (addrLines s o) = if s = s' then o.toList else [] := by
    intro s o
    cases o with
    | none => exact ⟨rfl, rfl, rfl, rfl, fun _ => rfl, fun _ => by split <;> rfl⟩
    | some v =>
      refine ⟨rfl, rfl, rfl, rfl, fun _ => rfl, fun s' => ?_⟩
      simp only [addrLines, pick_cons, pick_nil, addrValue, List.append_nil]
      split <;> rfl
  have a3 : ∀ {α : Type} (p : Cat.Line → Option α) dp d sp s, pick p (addressingLines dp d sp s) =
      (p (.text "Addressing")).toList ++ (pick p (panLines "dst pan id" dp) ++
        pick p (addrLines "dst addr" d) ++ pick p (panLines "src pan id" sp) ++
        pick p (addrLines "src addr" s)) := by
    intro α p dp d sp s
    rw [addressingLines, pick_cons, pick_shift, pick_append, pick_append, pick_append]
  have a4 : ∀ {α : Type} (p : Cat.Line → Option α), (∀ s, s ≠ "Addressing" → p (.text s) = none) →
      pick p (securityLines aux) = [] := by
    intro α p hp
    cases aux with
    | none => rfl
    | some a => simp [securityLines, pick, hp "Auxiliary Security Header" (by decide), hp "unimplementec" (by decide)]
  have a5 : ∀ {α : Type} (p : Cat.Line → Option α), (∀ s, s ≠ "Addressing" → p (.text s) = none) →
      pick p (seqLines seq) = (seq.bind fun n => p (.sequenceNumber n)).toList := by
    intro α p hp
    cases seq with
    | none => rfl
    | some a =>
      simp [seqLines, pick_cons, pick_nil, hp "Sequence Number" (by decide)]
  have a6 : ∀ {α : Type} (p : Cat.Line → Option α), (∀ s, s ≠ "Addressing" → p (.text s) = none) →
      pick p (payloadLines pl) = (pl.bind fun n => p (.payload n)).toList := by
    intro α p hp
    cases pl with
    | none => rfl
    | some a =>
      simp [payloadLines, pick_cons, pick_nil, hp "Payload" (by decide)]
  have t1 : ∀ s, s ≠ "Addressing" → fcValue (.text s) = none := fun _ _ => rfl
  have t2 : ∀ s, s ≠ "Addressing" → seqValue (.text s) = none := fun _ _ => rfl
  have t3 : ∀ s, s ≠ "Addressing" → payloadValue (.text s) = none := fun _ _ => rfl
  have t4 : ∀ s, s ≠ "Addressing" → headingValue "Addressing" (.text s) = none := fun s h => if_neg h
  have t5 : ∀ l s, s ≠ "Addressing" → panValue l (.text s) = none := fun _ _ _ => rfl
  have t6 : ∀ l s, s ≠ "Addressing" → addrValue l (.text s) = none := fun _ _ _ => rfl
  have f1 : pick seqValue (fcLines fc) = [] ∧ pick payloadValue (fcLines fc) = [] ∧
      pick (headingValue "Addressing") (fcLines fc) = [] ∧ (∀ s, pick (panValue s) (fcLines fc) = []) ∧
      ∀ s, pick (addrValue s) (fcLines fc) = [] := by
    simp [fcLines, pick, seqValue, payloadValue, headingValue, panValue, addrValue]
  simp only [a4 _ t1, a4 _ t2, a4 _ t3, a4 _ t4, a4 _ (t5 _), a4 _ (t6 _), a5 _ t1, a5 _ t2, a5 _ t3, a5 _ t4,
    a5 _ (t5 _), a5 _ (t6 _), a6 _ t1, a6 _ t2, a6 _ t3, a6 _ t4, a6 _ (t5 _), a6 _ (t6 _), f1]
  have b0 : ∀ {α β : Type} (o : Option α), (o.bind fun _ => (none : Option β)) = none := by
    intro α β o; cases o <;> rfl
  have b1 : ∀ {α : Type} (o : Option α), o.bind some = o := by
    intro α o; cases o <;> rfl
  simp only [fcValue, seqValue, payloadValue, headingValue, panValue, addrValue, b0, b1, Option.toList_none,
    List.append_nil, List.nil_append]
  cases ad with
  | none => simp [addrPart, pick]
  | some q =>
    obtain ⟨dp, d, sp, s⟩ := q
    simp only [addrPart, a3, a1, a2]
    simp [fcValue, seqValue, payloadValue, headingValue, panValue, addrValue]

/-- **C75**, the header.  Two frames printed as the same text have the same frame control field, sequence
number, PAN ids, addresses and payload. -/
theorem C75_header {b b' : Bytes} {t : Text.Chars} (h : Text.parse b = .ok t) (h' : Text.parse b' = .ok t) :
    ∃ f f' x, Frame.new b = .ok f ∧ Frame.new b' = .ok f' ∧ HasHeader f x ∧ HasHeader f' x := by
  simp only [Text.parse, bind_eq_ok, ok.injEq] at h h'
  obtain ⟨L, hL, e⟩ := h
  obtain ⟨L', hL', e'⟩ := h'
  have al := C75_lines hL hL' (e.trans e'.symm)
  have key : ∀ {b L}, Cat.parse b = .ok L → ∃ f, Frame.new b = .ok f ∧ Describes f L := by
    intro b L h
    rcases C54_exact b with ⟨f, hf, -, M, h1, h2⟩ | ⟨-, h1⟩
    · rw [h1, ok.injEq] at h; subst h; exact ⟨f, hf, h2⟩
    · rw [h1] at h; cases h
  obtain ⟨f, hf, d⟩ := key hL
  obtain ⟨f', hf', d'⟩ := key hL'
  obtain ⟨x, aux, E, hx, hE, hl⟩ := describes_header d
  obtain ⟨x', aux', E', hx', hE', hl'⟩ := describes_header d'
  obtain ⟨v1, v2, v3, v4, v5, v6, v7, v8⟩ := header_values x aux hE hl
  obtain ⟨w1, w2, w3, w4, w5, w6, w7, w8⟩ := header_values x' aux' hE' hl'
  refine ⟨f, f', x, hf, hf', hx, ?_⟩
  suffices x = x' by rw [this]; exact hx'
  have p1 := fcLines_inj (v1.symm.trans ((pick_alike plain_fc al).trans w1))
  have p2 := toList_inj (v2.symm.trans ((pick_alike plain_seq al).trans w2))
  have p3 := toList_inj (v3.symm.trans ((pick_alike plain_payload al).trans w3))
  have p4 := v4.symm.trans ((pick_alike plain_heading al).trans w4)
  have p5 := toList_inj (v5.symm.trans ((pick_alike (plain_pan _) al).trans w5))
  have p6 := toList_inj (v6.symm.trans ((pick_alike (plain_addr _) al).trans w6))
  have p7 := toList_inj (v7.symm.trans ((pick_alike (plain_pan _) al).trans w7))
  have p8 := toList_inj (v8.symm.trans ((pick_alike (plain_addr _) al).trans w8))
  obtain ⟨fc, seq, ad, pl⟩ := x
  obtain ⟨fc', seq', ad', pl'⟩ := x'
  simp only at p1 p2 p3 p4 p5 p6 p7 p8
  have : ad = ad' := by
    cases ad <;> cases ad' <;> simp_all
    rename_i q q'
    obtain ⟨q1, q2, q3, q4⟩ := q
    obtain ⟨r1, r2, r3, r4⟩ := q'
    simp_all
  simp [p1, p2, p3, this]

/-- Two frames that differ in the reserved bit of the frame control field only are printed, and alike. -/
example : (∃ t, Text.parse [0x41, 0x88, 0x05, 0xcd, 0xab, 0x34, 0x12, 0x78, 0x56, 0xaa] = .ok t) ∧
    Text.parse [0x41, 0x88, 0x05, 0xcd, 0xab, 0x34, 0x12, 0x78, 0x56, 0xaa] =
      Text.parse [0xc1, 0x88, 0x05, 0xcd, 0xab, 0x34, 0x12, 0x78, 0x56, 0xaa] := by
  have h1 : Cat.parse [0x41, 0x88, 0x05, 0xcd, 0xab, 0x34, 0x12, 0x78, 0x56, 0xaa] =
      Cat.parse [0xc1, 0x88, 0x05, 0xcd, 0xab, 0x34, 0x12, 0x78, 0x56, 0xaa] := by decide +kernel
  have h2 : Cat.parse [0x41, 0x88, 0x05, 0xcd, 0xab, 0x34, 0x12, 0x78, 0x56, 0xaa] ≠ .panic ∧
      Cat.parse [0x41, 0x88, 0x05, 0xcd, 0xab, 0x34, 0x12, 0x78, 0x56, 0xaa] ≠ .err := by decide +kernel
  refine ⟨?_, by rw [Text.parse, Text.parse, h1]⟩
  rw [Text.parse]
  cases h : Cat.parse [0x41, 0x88, 0x05, 0xcd, 0xab, 0x34, 0x12, 0x78, 0x56, 0xaa] with
  | ok L => exact ⟨_, rfl⟩
  | err => exact absurd h h2.2
  | panic => exact absurd h h2.1

/-- The unknown ids are spelled alike. -/
example : Text.lines [(2, .nestedElement (.short .unkown))] = Text.lines [(2, .nestedElement (.long .unkown))] := by
  decide +kernel

end Dot15d4.Props
