import Verif.Spec.Display
import Verif.Props.Frames
import Verif.Props.FrameControl
import Verif.Props.Tsch
import Verif.Lemmas.ReprParse

/-! # C63: printing the parts of a frame -/

namespace Dot15d4.Props
open Out Spec Display

/-! ## Frame control and addressing fields -/

theorem bit_flag (b : Bool) : bit b = flag b := by cases b <;> rfl

/-- **C63**: printing a frame control field shows every field of the two octets. -/
theorem C63_frame_control (o0 o1 : Byte) (rest : Bytes) :
    Display.frameControl (o0 :: o1 :: rest) = .ok (frameControlText (decodeFc o0 o1)) := by
  obtain ⟨h1, h2, h3, h4, h5, h6, h7, h8, h9, h10⟩ := C01_getters_decode o0 o1 rest
  simp only [Display.frameControl, h1, h2, h3, h4, h5, h6, h7, h8, h9, h10, bind_ok, bit_flag]
  rfl

theorem addressing_text (af : AddressingFields) (dp sp : Option (BitVec 16)) (d s : Address)
    (h1 : af.dstPanId = .ok dp) (h2 : af.dstAddress = .ok (some d)) (h3 : af.srcPanId = .ok sp)
    (h4 : af.srcAddress = .ok (some s)) :
    Display.addressing af = .ok (addressingText dp d sp s) := by
  simp only [Display.addressing, h1, h2, h3, h4, bind_ok]
  cases dp <;> cases sp <;> rfl

/-! ## Header elements -/

theorem headerContent {d : Bytes} (h : 2 ≤ d.length) : HeaderIe.content d =
    if headerLen (desc d) + 2 ≤ d.length then .ok (contentOf headerLen d) else .panic := by
  simp only [HeaderIe.content, HeaderIe.len, sliceFrom_ok h, desc_readU16 h, bind_ok, HeaderIe.wLen_eq,
    sliceTo, List.length_drop, contentOf]
  by_cases hc : headerLen (desc d) + 2 ≤ d.length
  · rw [if_pos hc, if_pos (by omega)]
  · rw [if_neg hc, if_neg (by omega)]

theorem headerElementId {d : Bytes} (h : 2 ≤ d.length) : HeaderIe.elementId d = .ok (headerIdOf d) := by
  simp only [HeaderIe.elementId, desc_readU16 h, bind_ok, headerIdOf, HeaderIe.wId]
  congr 2
  apply BitVec.eq_of_toNat_eq
  rw [BitVec.toNat_setWidth, BitVec.toNat_ofNat]
  congr 1
  exact bits_shift_mask (desc d) 7 8 (by decide)

theorem signed12_eq (b0 b1 : Byte) :
    Duration.fromUs (TimeCorrection.wTime (u16le b0 b1)) = signed12 b0 b1 := by
  have h0 := b0.isLt
  have h1 := b1.isLt
  simp only [signed12, wTime_eq]
  congr 1
  apply BitVec.eq_of_toInt_eq
  rw [BitVec.toInt_signExtend_of_le (by decide), BitVec.toInt_ofInt]
  have hv : ((u16le b0 b1).setWidth 12).toNat = b0.toNat + 256 * (b1.toNat % 16) := by
    rw [BitVec.toNat_setWidth, u16le_toNat]; omega
  rw [BitVec.toInt_eq_toNat_cond, hv, Int.bmod_def]
  split <;> split <;> split <;> omega

theorem nack_eq (b0 b1 : Byte) : bit ((u16le b0 b1 &&& 0x8000#16) != 0#16) = .number (b1.toNat / 128) := by
  have h0 := b0.isLt
  have h1 := b1.isLt
  have e : (u16le b0 b1 &&& 0x8000#16) = ((u16le b0 b1 >>> 15) &&& 1#16) <<< 15 := by
    apply BitVec.eq_of_getLsbD_eq
    intro i hi
    simp only [BitVec.getLsbD_and, BitVec.getLsbD_shiftLeft, BitVec.getLsbD_ushiftRight]
    interval_cases i <;> simp [-BitVec.getLsbD_eq_getElem]
  have hb := bits_shift_mask (u16le b0 b1) 15 1 (by decide)
  have hb : ((u16le b0 b1 >>> 15) &&& 1#16).toNat = b1.toNat / 128 := by
    rw [show (1#16) = BitVec.ofNat 16 (2 ^ 1 - 1) from rfl, hb, bits, u16le_toNat]; omega
  have hq : b1.toNat / 128 = 0 ∨ b1.toNat / 128 = 1 := by omega
  rw [e]
  rcases hq with hq | hq <;> rw [hq] at hb ⊢
  · rw [BitVec.eq_of_toNat_eq (y := 0#16) hb]; decide
  · rw [BitVec.eq_of_toNat_eq (y := 1#16) hb]; decide

theorem timeCorrection_text (b0 b1 : Byte) (l : Bytes) : Display.timeCorrection (b0 :: b1 :: l) =
    .ok [.duration (signed12 b0 b1), .lit ", nack: ", .number (b1.toNat / 128)] := by
  simp only [Display.timeCorrection, TimeCorrection.timeCorrection, TimeCorrection.nack, readU16_cons,
    bind_ok, signed12_eq, nack_eq]

/-- Header terminations have no content to print. -/
def isTerm (id : HeaderElementId) : Prop := id = .headerTermination1 ∨ id = .headerTermination2
instance (id) : Decidable (isTerm id) := by unfold isTerm; infer_instance

/-- **C63**: printing a header element shows its id and what its content says, exactly when the octets
of the content are there (or the element is a termination); it panics otherwise. -/
theorem C63_header (d : Bytes) :
    Display.header d =
      if 2 ≤ d.length ∧ (isTerm (headerIdOf d) ∨ headerLen (desc d) + 2 ≤ d.length) then
        .ok (headerText (headerIdOf d) (contentOf headerLen d)) else .panic := by
  by_cases h : 2 ≤ d.length
  · simp only [Display.header, headerElementId h, bind_ok, h, true_and, headerContent h]
    generalize contentOf headerLen d = c
    by_cases hl : headerLen (desc d) + 2 ≤ d.length
    · simp only [hl, or_true, if_true, bind_ok]
      cases headerIdOf d <;> try rfl
      case timeCorrection =>
        match c with
        | [] => rfl
        | [_] => rfl
        | b0 :: b1 :: l => simp [TimeCorrection.new, timeCorrection_text, headerText, headerId]
      case simplifiedSuperframeSpecification =>
        simp only [Macro.new, show Macro.size Macro.simplifiedSuperframeSpecification = 4 from by decide,
          headerText, headerId]
        by_cases h6 : 4 ≤ c.length <;> simp [h6]
    · simp only [hl, or_false, if_false, bind_panic]
      cases headerIdOf d <;> simp [isTerm, headerText]
  · simp only [h, false_and, if_false, Display.header, HeaderIe.elementId,
      readU16_short (Nat.lt_of_not_le h), bind_panic]

/-! ## Nested elements -/

theorem nestedContent' {d : Bytes} (h : 2 ≤ d.length) : NestedIe.content d =
    if nestedLen (desc d) + 2 ≤ d.length then .ok (contentOf nestedLen d) else .panic := by
  simp only [NestedIe.content, NestedIe.length, sliceFrom_ok h, desc_readU16 h, bind_ok, NestedIe.wLen_eq,
    sliceTo, List.length_drop, contentOf]
  by_cases hc : nestedLen (desc d) + 2 ≤ d.length
  · rw [if_pos hc, if_pos (by omega)]
  · rw [if_neg hc, if_neg (by omega)]

theorem nestedSubId {d : Bytes} (h : 2 ≤ d.length) : NestedIe.subId d = .ok (nestedId (desc d)) := by
  have hb : ∀ (w : BitVec 16) (lo m : Nat), m ≤ 8 →
      ((w >>> lo) &&& BitVec.ofNat 16 (2 ^ m - 1)).setWidth 8 = BitVec.ofNat 8 (bits w lo m) := by
    intro w lo m hm
    apply BitVec.eq_of_toNat_eq
    rw [BitVec.toNat_setWidth, bits_shift_mask w lo m (by omega), BitVec.toNat_ofNat]
  simp only [NestedIe.subId, desc_readU16 h, bind_ok, NestedIe.wSubId, NestedIe.wLong_eq, nestedId]
  rw [show (0x000f#16) = BitVec.ofNat 16 (2 ^ 4 - 1) from rfl,
    show (0x003f#16) = BitVec.ofNat 16 (2 ^ 6 - 1) from rfl, hb _ _ _ (by omega),
    hb _ _ _ (by omega)]
  simp only [decide_eq_true_eq]

/-- **C63**: printing a nested element shows its name and what its content says, exactly when the octets
of the content are there; it panics otherwise. -/
theorem C63_nested (d : Bytes) :
    Display.nested d =
      if 2 ≤ d.length ∧ nestedLen (desc d) + 2 ≤ d.length then
        .ok (nestedText (nestedId (desc d)) (contentOf nestedLen d)) else .panic := by
  by_cases h : 2 ≤ d.length
  · simp only [Display.nested, nestedSubId h, bind_ok, h, true_and, nestedContent' h]
    generalize contentOf nestedLen d = c
    by_cases hl : nestedLen (desc d) + 2 ≤ d.length
    · simp only [hl, if_true, bind_ok]
      cases nestedId (desc d) with
      | long id =>
        cases id <;> try rfl
        case channelHopping => cases c <;> rfl
      | short id =>
        cases id <;> try rfl
        case tschSynchronization =>
          match c with
          | [] => rfl
          | [_] => rfl
          | [_, _] => rfl
          | [_, _, _] => rfl
          | [_, _, _, _] => rfl
          | [_, _, _, _, _] => rfl
          | b0 :: b1 :: b2 :: b3 :: b4 :: b5 :: l =>
            obtain ⟨e1, e2, asn, e3, e4⟩ := C21_read b0 b1 b2 b3 b4 b5 l
            simp only [e1, named, synchronization, e2, e3, bind_ok, e4, nestedText]
            rfl
        case tschTimeslot =>
          match c with
          | [] => rfl
          | i :: r =>
            have hi : i = 0 ↔ i.toNat = 0 := by
              rw [← BitVec.toNat_inj]; rfl
            simp only [TschTimeslot.new, TschTimeslot.id, idx_zero, bind_ok, nestedText, hi,
              List.length_cons]
            rw [if_neg (by omega)]
            by_cases h0 : i.toNat = 0
            · simp [h0, named, timeslot, TschTimeslot.id, shortId]
            · by_cases h1 : r.length < 24
              · rw [if_neg h0, if_neg (by omega), if_pos ⟨h0, h1⟩]; rfl
              · rw [if_neg h0, if_pos (by omega), if_neg (by omega)]; rfl
        case tschSlotframeAndLink =>
          match c with
          | [] => rfl
          | n :: r => simp only [TschSlotframeAndLink.new_cons]; rfl
    · simp only [hl, if_false, bind_panic]
      cases nestedId (desc d) with
      | long id => cases id <;> rfl
      | short id => cases id <;> rfl
  · simp only [h, false_and, if_false, Display.nested, NestedIe.subId,
      readU16_short (Nat.lt_of_not_le h), bind_panic]

/-! ## Payload elements -/

theorem payloadContent {d : Bytes} (h : 2 ≤ d.length) : PayloadIe.content d =
    if payloadLen (desc d) + 2 ≤ d.length then .ok (contentOf payloadLen d) else .panic := by
  simp only [PayloadIe.content, PayloadIe.length, sliceFrom_ok h, desc_readU16 h, bind_ok,
    PayloadIe.wLen_eq, sliceTo, List.length_drop, contentOf]
  by_cases hc : payloadLen (desc d) + 2 ≤ d.length
  · rw [if_pos hc, if_pos (by omega)]
  · rw [if_neg hc, if_neg (by omega)]

theorem payloadGroupId {d : Bytes} (h : 2 ≤ d.length) : PayloadIe.groupId d = .ok (groupIdOf d) := by
  simp only [PayloadIe.groupId, desc_readU16 h, bind_ok, groupIdOf, PayloadIe.wId]
  congr 2
  apply BitVec.eq_of_toNat_eq
  rw [BitVec.toNat_setWidth, BitVec.toNat_ofNat]
  congr 1
  exact bits_shift_mask (desc d) 11 3 (by decide)

/-- What is shown of an MLME element with these nested elements: a line each. -/
def mlmeText (items : List Bytes) : Text :=
  [.groupId .mlme, .lit "\n"] ++ (items.map fun i =>
    [.lit "  "] ++ nestedText (nestedId (desc i)) (i.drop 2) ++ [.lit "\n"]).flatten

theorem nested_loop : ∀ (items : List Bytes) (acc : Text), (∀ i ∈ items, Complete nestedLen i) →
    loopList (fun i (acc : Text) => do
      .ok (false, acc ++ ([.lit "  "] ++ (← Display.nested i) ++ [.lit "\n"]))) items acc =
    .ok (acc ++ (items.map fun i =>
      [.lit "  "] ++ nestedText (nestedId (desc i)) (i.drop 2) ++ [.lit "\n"]).flatten) := by
  intro items
  induction items with
  | nil => intro acc _; simp [loopList]
  | cons i l ih =>
    intro acc h
    obtain ⟨h2, hl⟩ := h i (by simp)
    have hc : contentOf nestedLen i = i.drop 2 := by
      rw [contentOf, List.take_of_length_le]; rw [List.length_drop]; omega
    rw [loopList, C63_nested, if_pos ⟨h2, by omega⟩, hc]
    simp only [bind_ok, Bool.false_eq_true, if_false]
    rw [ih _ fun j hj => h j (by simp [hj])]
    simp [List.append_assoc]

/-- **C63**: printing a payload element of the MLME group shows the complete nested elements its
content starts with, one line each, and any other group its content, exactly when the octets of the
content are there; it panics otherwise. -/
theorem C63_payload (d : Bytes) :
    (2 ≤ d.length ∧ payloadLen (desc d) + 2 ≤ d.length →
      if groupIdOf d = .mlme then
        ∃ (items : List Bytes) (rest : Bytes), contentOf payloadLen d = items.flatten ++ rest ∧
          (∀ i ∈ items, Complete nestedLen i) ∧
          (rest.length < 2 ∨ rest.length < nestedLen (desc rest) + 2) ∧
          Display.payload d = .ok (mlmeText items)
      else Display.payload d = .ok (rawText (.groupId (groupIdOf d)) (contentOf payloadLen d))) ∧
    (¬ (2 ≤ d.length ∧ payloadLen (desc d) + 2 ≤ d.length) → Display.payload d = .panic) := by
  constructor
  · rintro ⟨h, hl⟩
    have hc := payloadContent h
    rw [if_pos hl] at hc
    by_cases hg : groupIdOf d = .mlme
    · rw [if_pos hg]
      obtain ⟨items, e, rest, h1, -, h3, h4, h5⟩ := C19_nested_iteration (contentOf payloadLen d)
      refine ⟨items, rest, h3, fun i hi => (h5 i hi).1, h4, ?_⟩
      simp only [Display.payload, payloadGroupId h, bind_ok, hg, PayloadIe.nestedIter, hc, if_true]
      have := forLoop_drain nestedNext (fun i (acc : Text) => (do
        .ok (false, acc ++ ([.lit "  "] ++ (← Display.nested i) ++ [.lit "\n"])) : Out (Bool × Text)))
        _ _ _ _ [] h1
      rw [show (nestedIter (contentOf payloadLen d)).data = contentOf payloadLen d from rfl, this,
        nested_loop items [] fun i hi => (h5 i hi).1]
      rfl
    · rw [if_neg hg]
      simp only [Display.payload, payloadGroupId h, bind_ok, hc]
      cases hg' : groupIdOf d <;> first | rfl | exact absurd hg' hg
  · intro hn
    by_cases h : 2 ≤ d.length
    · have hl : ¬ payloadLen (desc d) + 2 ≤ d.length := fun hl => hn ⟨h, hl⟩
      simp only [Display.payload, payloadGroupId h, bind_ok, PayloadIe.nestedIter, payloadContent h,
        if_neg hl, bind_panic]
      cases groupIdOf d <;> rfl
    · simp only [Display.payload, PayloadIe.groupId, readU16_short (Nat.lt_of_not_le h), bind_panic]

/-! ## The parts of an accepted frame -/

/-- No part of the frame an accessor or iterator returns panics when printed. -/
def Printable (api : FrameApi) (b : Bytes) : Prop :=
  (∃ fc t, api.frameControl b = .ok fc ∧ Display.frameControl fc = .ok t) ∧
  (∀ af, api.addressing b = .ok (some af) → ∃ t, Display.addressing af = .ok t) ∧
  (∀ ie, api.informationElements b = .ok (some ie) →
    (∃ hi e, InformationElements.headerDrain ie = .ok (hi, e) ∧
      ∀ i ∈ hi, ∃ t, Display.header i = .ok t) ∧
    (∃ pi e, InformationElements.payloadDrain ie = .ok (pi, e) ∧
      ∀ i ∈ pi, ∃ t, Display.payload i = .ok t))

theorem header_returns {i : HeaderIe} (h1 : Returns (HeaderIe.elementId i))
    (h2 : Returns (HeaderIe.content i)) : ∃ t, Display.header i = .ok t := by
  by_cases h : 2 ≤ List.length i
  · rw [headerContent h] at h2
    by_cases hl : headerLen (desc i) + 2 ≤ List.length i
    · exact ⟨_, by rw [C63_header, if_pos ⟨h, .inr hl⟩]⟩
    · rw [if_neg hl] at h2; exact absurd rfl h2
  · rw [HeaderIe.elementId, readU16_short (Nat.lt_of_not_le h)] at h1; exact absurd rfl h1

theorem payload_returns {i : PayloadIe} (h1 : Returns (PayloadIe.groupId i))
    (h2 : Returns (PayloadIe.content i)) : ∃ t, Display.payload i = .ok t := by
  by_cases h : 2 ≤ List.length i
  · rw [payloadContent h] at h2
    by_cases hl : payloadLen (desc i) + 2 ≤ List.length i
    · have := (C63_payload i).1 ⟨h, hl⟩
      split at this
      · obtain ⟨_, _, -, -, -, e⟩ := this; exact ⟨_, e⟩
      · exact ⟨_, this⟩
    · rw [if_neg hl] at h2; exact absurd rfl h2
  · rw [PayloadIe.groupId, readU16_short (Nat.lt_of_not_le h)] at h1; exact absurd rfl h1

theorem printable_of_splits (api : FrameApi) (b : Bytes) (h : SplitsInto api b) : Printable api b := by
  have ha := accessorsReturn_of_splits api b h
  obtain ⟨-, -, -, -, -, -, -, hIe⟩ := ha
  obtain ⟨o0, o1, seq, A, I, R, af, ie, -, h1, -, -, h3, hA, -⟩ := h
  refine ⟨⟨_, _, h1, C63_frame_control o0 o1 []⟩, ?_, ?_⟩
  · intro af' e
    rw [h3] at e; cases e
    obtain ⟨dp, d, sp, s, -, g1, g2, g3, g4, -⟩ := hA
    exact ⟨_, addressing_text _ dp sp d s g1 g2 g3 g4⟩
  · intro ie' e
    obtain ⟨-, ⟨hi, e1, k1, k2⟩, ⟨pi, e2, k3, k4⟩⟩ := hIe ie' e
    refine ⟨⟨hi, e1, k1, fun i hx => ?_⟩, ⟨pi, e2, k3, fun i hx => ?_⟩⟩
    · exact header_returns (k2 i hx).1 (k2 i hx).2.2
    · exact payload_returns (k4 i hx).1 (k4 i hx).2.2

/-- **C63**, the full property: every part of a frame or element the checked constructors accept can be
printed. -/
def C63_statement : Prop :=
  (∀ b, DataFrame.new b = .ok b → Printable dataApi b) ∧
  (∀ b, EnhancedBeacon.new b = .ok b → Printable beaconApi b) ∧
  (∀ d, HeaderIe.new d = .ok d → Returns (Display.header d)) ∧
  (∀ d, PayloadIe.new d = .ok d → Returns (Display.payload d)) ∧
  (∀ d, NestedIe.new d = .ok d → Returns (Display.nested d))

/-- **C63**, what holds (`_partial`: elements given to `HeaderInformationElement::new` and
`PayloadInformationElement::new` on their own are excluded): printing the frame control, the
addressing fields and every information element of an accepted data frame or enhanced beacon, and
every accepted nested element, never panics; of the addressing fields it shows those of the frame. -/
theorem C63_accepted_partial :
    (∀ b, DataFrame.new b = .ok b → Printable dataApi b) ∧
    (∀ b, EnhancedBeacon.new b = .ok b → Printable beaconApi b) ∧
    (∀ d, NestedIe.new d = .ok d → Returns (Display.nested d)) ∧
    (∀ b af, DataFrame.new b = .ok b → DataFrame.addressing b = .ok (some af) →
      ∃ o0 o1 seq A dp d sp s R, b = [o0, o1] ++ seq ++ A ++ R ∧ A = Spec.addressing dp d sp s ∧
        af.len = .ok A.length ∧ Display.addressing af = .ok (addressingText dp d sp s)) := by
  refine ⟨fun b h => printable_of_splits _ _ (C11_split b b h).2, ?_, ?_, ?_⟩
  · intro b h
    rcases C12_enhanced_beacon b with ⟨-, -, hs, -⟩ | ⟨-, e⟩
    · exact printable_of_splits _ _ hs
    · rw [e] at h; cases h
  · intro d h
    rw [C63_nested]
    have : 2 ≤ d.length ∧ nestedLen (desc d) + 2 ≤ d.length := by
      rw [NestedIe.new] at h
      split at h
      · cases h
      · have h2 : 2 ≤ d.length := by omega
        rw [NestedIe.length, desc_readU16 h2, bind_ok, bind_ok, NestedIe.wLen_eq] at h
        split at h
        · exact ⟨h2, by omega⟩
        · cases h
    rw [if_pos this]; simp
  · intro b af h e
    obtain ⟨-, o0, o1, seq, A, I, R, af', ie, hb, -, -, -, h3, hA, -⟩ := C11_split b b h
    have : (some af) = af' := by
      have h3 : DataFrame.addressing b = .ok af' := h3
      rw [e] at h3; cases h3; rfl
    subst this
    obtain ⟨dp, d, sp, s, hA, g1, g2, g3, g4, g5⟩ := hA
    exact ⟨o0, o1, seq.toList, A, dp, d, sp, s, I ++ R, by rw [hb]; simp, hA, g5,
      addressing_text _ dp sp d s g1 g2 g3 g4⟩

/-- **C63** is false of the code: `HeaderInformationElement::new` and `PayloadInformationElement::new`
accept an element whose announced content is not there, and printing it panics. -/
theorem C63_false : ¬ C63_statement ∧ HeaderIe.new [0x02, 0x0f] = .ok [0x02, 0x0f] ∧
    Display.header [0x02, 0x0f] = .panic ∧ PayloadIe.new [0x05, 0x90] = .ok [0x05, 0x90] ∧
    Display.payload [0x05, 0x90] = .panic := by
  refine ⟨fun h => ?_, by decide, by decide, by decide, by decide⟩
  exact h.2.2.1 [0x02, 0x0f] (by decide) (by decide)

/-- A time correction of -15 µs with nack, printed. -/
example : Display.header [0x02, 0x0f, 0xf1, 0x8f] =
    .ok [.lit "Time Correction", .lit " ", .duration (.fromUs (-15)), .lit ", nack: ", .number 1] := by
  decide

/-- **C63**, slotframes, links and timings: a slotframe descriptor shows its handle and its number of
links, a link its timeslot, channel offset and options, and timings show each of the twelve
durations once. -/
theorem C63_tsch :
    (∀ (s : Spec.Slotframe) (r : Bytes), s.links.length < 256 →
      Display.slotframe (s.encode ++ r) = .ok [.lit "Slotframe Handle: ", .number s.handle.toNat,
        .lit ", #links: ", .number s.links.length]) ∧
    (∀ (l : Spec.Link) (r : Bytes), l.Valid →
      Display.link (l.encode ++ r) = .ok [.lit "Timeslot: ", .number l.timeslot.toNat,
        .lit ", Channel Offset: ", .number l.channelOffset.toNat, .lit ", Link Options: ",
        .linkOptions l.options]) ∧
    (∀ t : TschTimeslotTimings, Display.timings t = table [("cca_offset: ", .duration t.ccaOffset),
      ("cca: ", .duration t.cca), ("tx offset: ", .duration t.txOffset),
      ("rx offset: ", .duration t.rxOffset), ("tx ack delay: ", .duration t.txAckDelay),
      ("rx ack delay: ", .duration t.rxAckDelay), ("rx wait: ", .duration t.rxWait),
      ("ack wait: ", .duration t.ackWait), ("rx/tx: ", .duration t.rxTx),
      ("max ack: ", .duration t.maxAck), ("max tx: ", .duration t.maxTx),
      ("timeslot length: ", .duration t.timeslotLength)]) := by
  refine ⟨fun s r h => ?_, fun l r h => ?_, fun t => rfl⟩
  · have e : (BitVec.ofNat 8 s.links.length).toNat = s.links.length := by
      rw [BitVec.toNat_ofNat]; omega
    simp [Display.slotframe, SlotframeDescriptor.handle, SlotframeDescriptor.links,
      Spec.Slotframe.encode, u16bytes, h]
  · obtain ⟨h1, h2, h3⟩ := linkReads_encode l h r
    simp [Display.link, h1, h2, h3]

end Dot15d4.Props
