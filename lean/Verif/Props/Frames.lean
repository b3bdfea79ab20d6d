import Verif.Lemmas.Frames

/-! # C09-C14: decoding frames -/

namespace Dot15d4.Props
open Out Spec

/-! ## C09 -/

/-- The byte strings a data frame (or enhanced beacon) may consist of. -/
def Acceptable (b : Bytes) : Prop :=
  2 ≤ b.length ∧ b.length ≤ 127 ∧ ∃ o0 o1 l, b = o0 :: o1 :: l ∧
    ((decodeFc o0 o1).seqNoSuppression = false → 3 ≤ b.length) ∧
    (decodeFc o0 o1).securityEnabled = false ∧
    (decodeFc o0 o1).frameType ≠ .unknown ∧ (decodeFc o0 o1).frameVersion ≠ .unknown ∧
    (decodeFc o0 o1).dstMode ≠ .unknown ∧ (decodeFc o0 o1).srcMode ≠ .unknown

/-- **C09**.  `DataFrame::new` accepts exactly the acceptable byte strings and returns an error on
every other one; it never panics. -/
theorem C09_new (b : Bytes) :
    (Acceptable b ∧ DataFrame.new b = .ok b) ∨ (¬ Acceptable b ∧ DataFrame.new b = .err) := by
  by_cases h2 : b.length < 2
  · right
    refine ⟨fun h => by have := h.1; omega, ?_⟩
    simp [DataFrame.new, DataFrame.checkLen, h2]
  by_cases h127 : b.length > 127
  · right
    refine ⟨fun h => by have := h.2.1; omega, ?_⟩
    simp [DataFrame.new, DataFrame.checkLen, h127]
  obtain ⟨o0, o1, l, rfl⟩ := exists_cons2 (by omega : 2 ≤ b.length)
  have hc : DataFrame.checkLen (o0 :: o1 :: l) =
      .ok (!(!(decodeFc o0 o1).seqNoSuppression && decide ((o0 :: o1 :: l).length < 3))) := by
    simp only [DataFrame.checkLen, h2, h127, or_self, if_false, df_frameControl, bind_ok, fc_sup]
  by_cases hlen : (decodeFc o0 o1).seqNoSuppression = false ∧ (o0 :: o1 :: l).length < 3
  · right
    refine ⟨?_, ?_⟩
    · rintro ⟨-, -, p0, p1, l', e, h, -⟩
      cases e
      have := h hlen.1; omega
    · simp only [DataFrame.new, hc, hlen.1, hlen.2, bind_ok]; rfl
  · have hb : (!(!(decodeFc o0 o1).seqNoSuppression && decide ((o0 :: o1 :: l).length < 3))) = true := by
      cases hs : (decodeFc o0 o1).seqNoSuppression
      · simp only [hs, true_and] at hlen
        simp only [Bool.not_false, Bool.true_and, Bool.not_eq_true', decide_eq_false_iff_not]
        exact hlen
      · rfl
    have hacc : Acceptable (o0 :: o1 :: l) ↔ (decodeFc o0 o1).securityEnabled = false ∧
        (decodeFc o0 o1).frameType ≠ .unknown ∧ (decodeFc o0 o1).frameVersion ≠ .unknown ∧
        (decodeFc o0 o1).dstMode ≠ .unknown ∧ (decodeFc o0 o1).srcMode ≠ .unknown := by
      constructor
      · rintro ⟨-, -, p0, p1, l', e, -, h⟩
        cases e; exact h
      · intro h
        exact ⟨by omega, by omega, o0, o1, l, rfl, fun hs => by
          rcases Nat.lt_or_ge (o0 :: o1 :: l).length 3 with h | h
          · exact absurd ⟨hs, h⟩ hlen
          · exact h, h⟩
    rw [hacc]
    simp only [DataFrame.new, hc, hb, bind_ok, if_true, df_frameControl, fc_security, fc_frameType,
      fc_version, fc_dst, fc_src]
    cases (decodeFc o0 o1).securityEnabled
    · by_cases h1 : (decodeFc o0 o1).frameType = .unknown
      · simp [h1]
      · by_cases h2 : (decodeFc o0 o1).frameVersion = .unknown
        · simp [h1, h2]
        · by_cases h3 : (decodeFc o0 o1).dstMode = .unknown
          · simp [h1, h2, h3]
          · by_cases h4 : (decodeFc o0 o1).srcMode = .unknown
            · simp [h1, h2, h3, h4]
            · simp [h1, h2, h3, h4]
    · simp

theorem C09_new_total (b : Bytes) : Returns (DataFrame.new b) := by
  rcases C09_new b with ⟨-, h⟩ | ⟨-, h⟩ <;> simp [h]

example : Acceptable [0x41, 0xd8, 0x01, 0xcd, 0xab, 0xff, 0xff, 0xc7, 0xd9, 0xb5, 0x14, 0x00,
    0x4b, 0x12, 0x00, 0x2b, 0x00, 0x00, 0x00] :=
  ⟨by decide, by decide, 0x41, 0xd8, _, rfl, by decide, by decide, by decide, by decide, by decide,
    by decide⟩

/-! ## C10, C11 -/

/-- The accessors common to data frames and enhanced beacons. -/
structure FrameApi where
  frameControl : Bytes → Out Bytes
  sequenceNumber : Bytes → Out (Option Byte)
  addressing : Bytes → Out (Option AddressingFields)
  auxSecHeader : Bytes → Out (Option AuxSecHeader)
  informationElements : Bytes → Out (Option InformationElements)
  payload : Bytes → Out (Option Bytes)

/-- Data frames. -/
def dataApi : FrameApi := ⟨DataFrame.frameControl, DataFrame.sequenceNumber, DataFrame.addressing,
  DataFrame.auxSecHeader, DataFrame.informationElements, DataFrame.payload⟩

/-- Enhanced beacons. -/
def beaconApi : FrameApi := ⟨EnhancedBeacon.frameControl, EnhancedBeacon.sequenceNumber,
  EnhancedBeacon.addressing, EnhancedBeacon.auxSecHeader, EnhancedBeacon.informationElements,
  EnhancedBeacon.payload⟩

/-- An optional addressing reader reads exactly the bytes `A` (nothing, if there is none). -/
def AddressingIs (A : Bytes) : Option AddressingFields → Prop
  | none => A = []
  | some af => ∃ dp d sp s, A = Spec.addressing dp d sp s ∧ af.dstPanId = .ok dp ∧
      af.dstAddress = .ok (some d) ∧ af.srcPanId = .ok sp ∧ af.srcAddress = .ok (some s) ∧
      af.len = .ok A.length

/-- An optional information element reader covers exactly the bytes `I` out of `I ++ R`. -/
def ElementsAre (I R : Bytes) : Option InformationElements → Prop
  | none => I = []
  | some ie => ie = I ++ R ∧ InformationElements.new (I ++ R) = .ok ie ∧
      InformationElements.len ie = .ok I.length

/-- The bytes are split into frame control, sequence number, addressing fields, information
elements and payload, each accessor returning its part (no accessor panics). -/
def SplitsInto (api : FrameApi) (b : Bytes) : Prop :=
  ∃ (o0 o1 : Byte) (seq : Option Byte) (A I R : Bytes) (af : Option AddressingFields)
    (ie : Option InformationElements),
    b = [o0, o1] ++ seq.toList ++ A ++ I ++ R ∧
    api.frameControl b = .ok [o0, o1] ∧
    api.sequenceNumber b = .ok seq ∧ seq.isSome = !(decodeFc o0 o1).seqNoSuppression ∧
    api.addressing b = .ok af ∧ AddressingIs A af ∧
    (af.isSome = match fcPans o0 o1 with
      | none => false
      | some p => decide (fcAddrLen o0 o1 p ≤ (A ++ I ++ R).length)) ∧
    api.auxSecHeader b = .ok none ∧
    api.informationElements b = .ok ie ∧ ElementsAre I R ie ∧
    ((decodeFc o0 o1).iePresent = false → ie = none) ∧
    ((decodeFc o0 o1).iePresent = true → ie = none → InformationElements.new (I ++ R) = .err) ∧
    api.payload b = .ok (if R = [] then none else some R)

theorem seq_length {seq : Option Byte} {s : Bool} (h : seq.isSome = !s) :
    seq.toList.length = if s then 0 else 1 := by
  cases seq <;> cases s <;> simp at h ⊢

theorem splits_data (b : Bytes) (h : Acceptable b) : SplitsInto dataApi b := by
  obtain ⟨h2, -, o0, o1, l, rfl, hseq, hsec, -, -, hd, hs⟩ := h
  have hl : (decodeFc o0 o1).seqNoSuppression = false → 1 ≤ l.length := fun h => by
    have := hseq h; simp at this; omega
  have hA := df_addressing o0 o1 l hl
  -- the sequence number
  obtain ⟨seq, hl', hsn, hsm⟩ : ∃ seq : Option Byte, l = seq.toList ++ afterSeq o0 o1 l ∧
      DataFrame.sequenceNumber (o0 :: o1 :: l) = .ok seq ∧
      seq.isSome = !(decodeFc o0 o1).seqNoSuppression := by
    simp only [DataFrame.sequenceNumber, df_frameControl, bind_ok, fc_sup, afterSeq]
    cases hc : (decodeFc o0 o1).seqNoSuppression with
    | true => exact ⟨none, by simp⟩
    | false =>
      match l, hl hc with
      | x :: l, _ => exact ⟨some x, by simp⟩
  have hk : l.length = (if (decodeFc o0 o1).seqNoSuppression then 0 else 1) +
      (afterSeq o0 o1 l).length := by
    conv => lhs; rw [hl', List.length_append]
    rw [seq_length hsm]
  -- the addressing fields
  obtain ⟨A, X, af, haf, hAX, hAis, hafs⟩ : ∃ A X af,
      DataFrame.addressing (o0 :: o1 :: l) = .ok af ∧ afterSeq o0 o1 l = A ++ X ∧
      AddressingIs A af ∧ (af.isSome = match fcPans o0 o1 with
      | none => false
      | some p => decide (fcAddrLen o0 o1 p ≤ (A ++ X).length)) := by
    rw [hA]
    have hn := C05_new_iff (afterSeq o0 o1 l) o0 o1 [] hd hs
    cases hp : fcPans o0 o1 with
    | none =>
      rw [hp] at hn
      exact ⟨[], afterSeq o0 o1 l, none, by rw [hn]; rfl, rfl, rfl, rfl⟩
    | some p =>
      rw [hp] at hn
      by_cases hle : fcAddrLen o0 o1 p ≤ (afterSeq o0 o1 l).length
      · simp only [hle, if_true] at hn
        obtain ⟨p', dp, d, sp, s, rest, e1, -, -, -, -, e2, g1, g2, g3, g4, g5⟩ :=
          C05_layout _ o0 o1 [] hd hs _ hn
        exact ⟨_, rest, some ⟨afterSeq o0 o1 l, [o0, o1]⟩, by rw [hn]; rfl, e2,
          ⟨dp, d, sp, s, rfl, g1, g2, g3, g4, g5⟩, by rw [← e2]; simp [hle]⟩
      · simp only [hle, if_false] at hn
        exact ⟨[], afterSeq o0 o1 l, none, by rw [hn]; rfl, rfl, rfl, by simp [hle]⟩
  have hoff : DataFrame.addrEnd (o0 :: o1 :: l) =
      .ok (2 + (if (decodeFc o0 o1).seqNoSuppression then 0 else 1) + A.length) := by
    simp only [DataFrame.addrEnd, df_frameControl, bind_ok, fc_sup, haf]
    cases af with
    | none => have : A = [] := hAis; simp [this]
    | some af =>
      obtain ⟨-, -, -, -, -, -, -, -, -, g⟩ := hAis
      simp only [g, bind_ok]
  have hdrop : sliceFrom (o0 :: o1 :: l)
      (2 + (if (decodeFc o0 o1).seqNoSuppression then 0 else 1) + A.length) = .ok X := by
    rw [sliceFrom_ok (by simp; rw [hk, hAX, List.length_append]; omega)]
    congr 1
    have e : o0 :: o1 :: l = ([o0, o1] ++ seq.toList ++ A) ++ X := by
      rw [List.append_assoc, ← hAX, List.append_assoc, ← hl']; rfl
    rw [e, List.drop_left']
    simp only [List.length_append, seq_length hsm, List.length_cons, List.length_nil]
  have hsecb : DataFrame.auxSecHeader (o0 :: o1 :: l) = .ok none := by
    simp [DataFrame.auxSecHeader, hsec]
  -- the information elements
  obtain ⟨I, R, ie, hie, hIR, hIe, hin, hin2⟩ : ∃ I R ie,
      DataFrame.informationElements (o0 :: o1 :: l) = .ok ie ∧ X = I ++ R ∧ ElementsAre I R ie ∧
      ((decodeFc o0 o1).iePresent = false → ie = none) ∧
      ((decodeFc o0 o1).iePresent = true → ie = none → InformationElements.new (I ++ R) = .err) := by
    simp only [DataFrame.informationElements, df_frameControl, bind_ok, fc_ie, hoff, hdrop]
    cases hi : (decodeFc o0 o1).iePresent with
    | false => exact ⟨[], X, none, by simp [ElementsAre]⟩
    | true =>
      cases hx : InformationElements.new X with
      | panic => exact absurd hx (C15_new_total X)
      | err => exact ⟨[], X, none, by simp [ElementsAre, hx]⟩
      | ok ie =>
        obtain ⟨rfl, hs, ps, rest, -, -, -, -, e, -, -, -, -, -, -, -, -, -, g, -⟩ :=
          C15_partition X ie hx
        refine ⟨hs.flatten ++ ps.flatten, rest, some ie, by simp, by rw [e]; simp, ?_⟩
        rw [← List.append_assoc] at e
        refine ⟨⟨e, by rw [← e, hx], ?_⟩, by simp, by simp⟩
        rw [g, List.length_append]
  refine ⟨o0, o1, seq, A, I, R, af, ie, ?_, df_frameControl o0 o1 l, hsn, hsm, haf, hAis, ?_,
    hsecb, hie, hIe, hin, hin2, ?_⟩
  · rw [List.append_assoc, ← hIR, List.append_assoc, ← hAX, List.append_assoc, ← hl']; rfl
  · rw [List.append_assoc, ← hIR]; exact hafs
  · have hpo : DataFrame.payloadOffset (o0 :: o1 :: l) =
        .ok (2 + (if (decodeFc o0 o1).seqNoSuppression then 0 else 1) + A.length + I.length) := by
      simp only [DataFrame.payloadOffset, df_frameControl, bind_ok, hoff, fc_security, hsec, fc_ie,
        hie]
      cases hi : (decodeFc o0 o1).iePresent with
      | false =>
        have : I = [] := by rw [hin hi] at hIe; exact hIe
        simp [this]
      | true =>
        cases ie with
        | none => have : I = [] := hIe; simp [this]
        | some ie =>
          obtain ⟨-, -, g⟩ := hIe
          simp [g]
    have hlen : (o0 :: o1 :: l).length =
        2 + (if (decodeFc o0 o1).seqNoSuppression then 0 else 1) + A.length + I.length + R.length := by
      have : (afterSeq o0 o1 l).length = A.length + (I.length + R.length) := by
        rw [hAX, hIR]; simp
      simp only [List.length_cons]; omega
    show DataFrame.payload (o0 :: o1 :: l) = _
    simp only [DataFrame.payload, hpo, bind_ok]
    by_cases hR : R = []
    · rw [if_pos (by rw [hlen, hR]; simp), if_pos hR]
    · have : R.length ≠ 0 := by simpa using hR
      rw [if_neg (by omega), if_neg hR, sliceFrom_ok (by omega)]
      have hd2 : List.drop (2 + (if (decodeFc o0 o1).seqNoSuppression then 0 else 1) + A.length)
          (o0 :: o1 :: l) = X := by
        rw [sliceFrom_ok (by omega)] at hdrop; injection hdrop
      rw [← List.drop_drop, hd2, hIR, List.drop_left]
      rfl

/-- **C11**.  Every byte string accepted by `DataFrame::new` is the concatenation of the parts its
accessors return, in order, nothing skipped or overlapping; the payload is `None` exactly when
nothing remains. -/
theorem C11_split (b f : Bytes) (h : DataFrame.new b = .ok f) : f = b ∧ SplitsInto dataApi b := by
  rcases C09_new b with ⟨ha, e⟩ | ⟨-, e⟩
  · rw [e] at h; cases h; exact ⟨rfl, splits_data b ha⟩
  · rw [e] at h; cases h

/-- No accessor of the frame, of its addressing fields or of its information elements panics. -/
def AccessorsReturn (api : FrameApi) (b : Bytes) : Prop :=
  Returns (api.frameControl b) ∧ Returns (api.sequenceNumber b) ∧ Returns (api.addressing b) ∧
  Returns (api.auxSecHeader b) ∧ Returns (api.informationElements b) ∧ Returns (api.payload b) ∧
  (∀ af, api.addressing b = .ok (some af) →
    Returns af.dstPanId ∧ Returns af.dstAddress ∧ Returns af.srcPanId ∧ Returns af.srcAddress ∧
    Returns af.len) ∧
  (∀ ie, api.informationElements b = .ok (some ie) →
    Returns (InformationElements.len ie) ∧
    (∃ hi e, InformationElements.headerDrain ie = .ok (hi, e) ∧
      ∀ i ∈ hi, Returns (HeaderIe.elementId i) ∧ Returns (HeaderIe.len i) ∧
        Returns (HeaderIe.content i)) ∧
    (∃ pi e, InformationElements.payloadDrain ie = .ok (pi, e) ∧
      ∀ i ∈ pi, Returns (PayloadIe.groupId i) ∧ Returns (PayloadIe.length i) ∧
        Returns (PayloadIe.content i)))

theorem returns_of_map {α β : Type} {l : List α} {f : α → Out β} {m : List γ} {g : γ → β}
    (h : l.map f = m.map (fun c => .ok (g c))) : ∀ i ∈ l, Returns (f i) := by
  intro i hi
  have : f i ∈ m.map (fun c => Out.ok (g c)) := h ▸ List.mem_map_of_mem hi
  obtain ⟨c, -, e⟩ := List.mem_map.mp this
  rw [← e]; simp

theorem accessorsReturn_of_splits (api : FrameApi) (b : Bytes) (h : SplitsInto api b) :
    AccessorsReturn api b := by
  obtain ⟨o0, o1, seq, A, I, R, af, ie, -, h1, h2, -, h3, hA, -, h4, h5, hI, -, -, h6⟩ := h
  refine ⟨by simp [h1], by simp [h2], by simp [h3], by simp [h4], by simp [h5], by simp [h6], ?_, ?_⟩
  · intro af' e
    rw [h3] at e; cases e
    obtain ⟨_, _, _, _, -, g1, g2, g3, g4, g5⟩ := hA
    simp [g1, g2, g3, g4, g5]
  · intro ie' e
    rw [h5] at e; cases e
    obtain ⟨rfl, hn, hl⟩ := hI
    obtain ⟨-, hs, ps, rest, hi, pi, e1, e2, -, -, -, -, d1, -, d2, -, r1, r2, -, -⟩ :=
      C15_partition _ _ hn
    refine ⟨by simp [hl], ⟨hi, e1, d1, fun i hx => ?_⟩, ⟨pi, e2, d2, fun i hx => ?_⟩⟩
    · exact ⟨returns_of_map r1.2.2 i hx, returns_of_map r1.2.1 i hx, returns_of_map r1.1 i hx⟩
    · exact ⟨returns_of_map r2.2.2 i hx, returns_of_map r2.2.1 i hx, returns_of_map r2.1 i hx⟩

/-- **C10**.  Once `DataFrame::new` accepted the bytes no accessor panics. -/
theorem C10_accessors (b f : Bytes) (h : DataFrame.new b = .ok f) : AccessorsReturn dataApi f := by
  obtain ⟨rfl, hs⟩ := C11_split b f h
  exact accessorsReturn_of_splits _ _ hs

/-! ## C12: enhanced beacons -/

/-- **C12**.  `EnhancedBeacon::new` accepts exactly the acceptable byte strings and returns an
error for the others; of an accepted one no accessor panics, and it is split in the same way. -/
theorem C12_enhanced_beacon (b : Bytes) :
    (Acceptable b ∧ EnhancedBeacon.new b = .ok b ∧ SplitsInto beaconApi b ∧
      AccessorsReturn beaconApi b) ∨ (¬ Acceptable b ∧ EnhancedBeacon.new b = .err) := by
  have e1 : EnhancedBeacon.new b = DataFrame.new b := rfl
  have e2 : beaconApi = dataApi := rfl
  rw [e1, e2]
  rcases C09_new b with ⟨ha, e⟩ | h
  · exact .inl ⟨ha, e, splits_data b ha, accessorsReturn_of_splits _ _ (splits_data b ha)⟩
  · exact .inr h

example : EnhancedBeacon.new [0x40, 0xeb, 0xcd, 0xab, 0xff, 0xff, 0x01, 0x00, 0x01, 0x00, 0x01,
    0x00, 0x01, 0x00, 0x00, 0x3f] = .ok [0x40, 0xeb, 0xcd, 0xab, 0xff, 0xff, 0x01, 0x00, 0x01,
    0x00, 0x01, 0x00, 0x01, 0x00, 0x00, 0x3f] := by decide

/-! ## C13: enhanced acknowledgments -/

/-- The claim: accessors of an accepted enhanced acknowledgment do not panic. -/
def C13_statement : Prop := ∀ b f, EnhancedAck.new b = .ok f →
  Returns (EnhancedAck.frameControl f) ∧ Returns (EnhancedAck.sequenceNumber f) ∧
  Returns (EnhancedAck.addressing f) ∧ Returns (EnhancedAck.informationElements f) ∧
  Returns (EnhancedAck.payload f)

/-- It is false: two bytes are accepted, and so is everything else. -/
theorem C13_false : ¬ C13_statement := by
  intro h
  have := (h [0x02, 0x20] _ rfl).2.1
  exact this (by decide)

/-- The panics reach users of `Frame`: two bytes received from the radio suffice. -/
theorem C13_frame_panics : ∃ f, Frame.new [0x02, 0x20] = .ok f ∧ f.sequenceNumber = .panic ∧
    f.addressing = .panic ∧ f.payload = .panic :=
  ⟨.enhancedAck [0x02, 0x20], by decide, by decide, by decide, by decide⟩

/-- Malformed information elements also panic: the accessor unwraps. -/
theorem C13_elements_panic : ∃ b, EnhancedAck.new b = .ok b ∧ Acceptable b ∧
    EnhancedAck.informationElements b = .panic :=
  ⟨[0x02, 0x23, 0x7f, 0x00], rfl,
    ⟨by decide, by decide, 0x02, 0x23, _, rfl, by decide, by decide, by decide, by decide, by decide,
      by decide⟩, by decide⟩

/-- What holds: if the bytes satisfy the checks that `DataFrame::new` makes and the information
elements, if present, are well-formed, the accessors return the same values as the data frame
accessors (the payload as an empty slice instead of `None` when nothing remains). -/
theorem C13_accessors_partial (b : Bytes) (h : Acceptable b)
    (hie : ∀ fc, DataFrame.frameControl b = .ok fc → FrameControl.iePresent fc = .ok true →
      DataFrame.informationElements b ≠ .ok none) :
    EnhancedAck.frameControl b = DataFrame.frameControl b ∧
    EnhancedAck.sequenceNumber b = DataFrame.sequenceNumber b ∧
    EnhancedAck.addressing b = DataFrame.addressing b ∧
    EnhancedAck.auxSecHeader b = DataFrame.auxSecHeader b ∧
    EnhancedAck.informationElements b = DataFrame.informationElements b ∧
    ∃ p, DataFrame.payload b = .ok p ∧ EnhancedAck.payload b = .ok (some (p.getD [])) := by
  obtain ⟨o0, o1, seq, A, I, R, af, ie, hb, h1, h2, hsm, h3, hA, -, h4, h5, hI, hIn, -, h6⟩ :=
    splits_data b h
  obtain ⟨-, -, p0, p1, l, rfl, -, hsec, -⟩ := h
  obtain ⟨rfl, rfl, hl⟩ : p0 = o0 ∧ p1 = o1 ∧ l = seq.toList ++ A ++ I ++ R := by
    simpa using hb
  simp only [dataApi] at h1 h2 h3 h4 h5 h6
  have e1 : ∀ l', EnhancedAck.frameControl (p0 :: p1 :: l') = .ok [p0, p1] := fun l' => by
    simp [EnhancedAck.frameControl, sliceTo, FrameControl.new]
  have e3 : EnhancedAck.addressing (p0 :: p1 :: l) = .ok af := by
    rw [← h3]; simp only [EnhancedAck.addressing, e1, DataFrame.addressing, df_frameControl]
  have e0 : EnhancedAck.addrEnd (p0 :: p1 :: l) =
      .ok (2 + (if (decodeFc p0 p1).seqNoSuppression then 0 else 1) + A.length) := by
    simp only [EnhancedAck.addrEnd, e1, bind_ok, fc_sup, e3]
    cases af with
    | none => have : A = [] := hA; simp [this]
    | some af =>
      obtain ⟨-, -, -, -, -, -, -, -, -, g⟩ := hA
      simp only [g, bind_ok]
  have e5 : EnhancedAck.secEnd (p0 :: p1 :: l) =
      .ok (2 + (if (decodeFc p0 p1).seqNoSuppression then 0 else 1) + A.length) := by
    simp only [EnhancedAck.secEnd, e0, e1, bind_ok, fc_security, hsec]; rfl
  have hseq : seq.toList.length = if (decodeFc p0 p1).seqNoSuppression then 0 else 1 :=
    seq_length hsm
  have hsl : ∀ n, n ≤ (I ++ R).length → sliceFrom (p0 :: p1 :: l)
      (2 + (if (decodeFc p0 p1).seqNoSuppression then 0 else 1) + A.length + n) =
      .ok ((I ++ R).drop n) := by
    intro n hn
    have e : p0 :: p1 :: l = ([p0, p1] ++ seq.toList ++ A) ++ (I ++ R) := by rw [hl]; simp
    have ek : (2 + (if (decodeFc p0 p1).seqNoSuppression then 0 else 1) + A.length) =
      ([p0, p1] ++ seq.toList ++ A).length := by
      simp only [List.length_append, hseq, List.length_cons, List.length_nil]
    have hle : ([p0, p1] ++ seq.toList ++ A).length + n ≤
        (([p0, p1] ++ seq.toList ++ A) ++ (I ++ R)).length := by
      rw [List.length_append (bs := I ++ R)]; omega
    rw [e, ek, sliceFrom_ok hle, List.drop_append, List.drop_eq_nil_of_le (by omega)]
    simp
  have e6 : EnhancedAck.informationElements (p0 :: p1 :: l) = .ok ie := by
    simp only [EnhancedAck.informationElements, e5, e1, bind_ok, fc_ie]
    cases hi : (decodeFc p0 p1).iePresent with
    | false => rw [hIn hi]; rfl
    | true =>
      have := hsl 0 (by omega)
      simp only [Nat.add_zero, List.drop_zero] at this
      simp only [if_true, this, bind_ok]
      cases ie with
      | none => exact absurd h5 (hie [p0, p1] h1 (by simp [hi]))
      | some ie =>
        obtain ⟨g1, g2, -⟩ := hI
        rw [g2]; rfl
  refine ⟨by rw [e1, h1], ?_, by rw [e3, h3], ?_, by rw [e6, h5], _, h6, ?_⟩
  · simp only [EnhancedAck.sequenceNumber, DataFrame.sequenceNumber, e1, df_frameControl]
  · rw [h4]; simp only [EnhancedAck.auxSecHeader, e0, e1, bind_ok, fc_security, hsec]; rfl
  · have hr : ((if R = [] then none else some R).getD [] : Bytes) = R := by
      by_cases hR : R = [] <;> simp [hR]
    rw [hr]
    simp only [EnhancedAck.payload, e5, e1, bind_ok, fc_ie, e6]
    have hfin := hsl I.length (by simp)
    rw [List.drop_left] at hfin
    cases hi : (decodeFc p0 p1).iePresent with
    | false =>
      have : I = [] := by rw [hIn hi] at hI; exact hI
      subst this
      simp only [List.length_nil, Nat.add_zero] at hfin
      simp [hfin]
    | true =>
      cases ie with
      | none =>
        have : I = [] := hI
        subst this
        simp only [List.length_nil, Nat.add_zero] at hfin
        simp [hfin]
      | some ie =>
        obtain ⟨-, -, g⟩ := hI
        simp [g, hfin]

/-- The hypotheses are met by the enhanced acknowledgment of the code's own test. -/
example : Acceptable [0x02, 0x2e, 0x37, 0xcd, 0xab, 0x02, 0x00, 0x02, 0x00, 0x02, 0x00, 0x02, 0x00,
      0x02, 0x0f, 0xe1, 0x8f] ∧
    DataFrame.informationElements [0x02, 0x2e, 0x37, 0xcd, 0xab, 0x02, 0x00, 0x02, 0x00, 0x02, 0x00,
      0x02, 0x00, 0x02, 0x0f, 0xe1, 0x8f] = .ok (some [0x02, 0x0f, 0xe1, 0x8f]) :=
  ⟨⟨by decide, by decide, 0x02, 0x2e, _, rfl, by decide, by decide, by decide, by decide, by decide,
    by decide⟩, by decide⟩

/-! ## C14: `Frame::new` -/

/-- Which frame a type and version designate. -/
def designated (b : Bytes) : FrameType → FrameVersion → Option Frame
  | .ack, .v2003 | .ack, .v2006 => some (.ack b)
  | .ack, .v2020 => some (.enhancedAck b)
  | .beacon, .v2003 | .beacon, .v2006 => some (.beacon b)
  | .beacon, .v2020 => some (.enhancedBeacon b)
  | .data, _ => some (.data b)
  | _, _ => none

/-- The claim. -/
def C14_statement : Prop := ∀ b, Returns (Frame.new b) ∧ ∀ f, Frame.new b = .ok f →
  ∃ o0 o1 l, b = o0 :: o1 :: l ∧
    designated b (decodeFc o0 o1).frameType (decodeFc o0 o1).frameVersion = some f

/-- It is false: every 2003/2006 beacon panics, e.g. two zero bytes. -/
theorem C14_false : ¬ C14_statement := fun h => (h [0, 0]).1 (by decide)

/-- What holds: `Frame::new` panics exactly on 2003/2006 beacons; otherwise it errs or returns the
designated kind of frame over the same bytes; it accepts an immediate acknowledgment iff it has
three bytes, every enhanced acknowledgment, and data frames and enhanced beacons iff acceptable. -/
theorem C14_dispatch_partial (b : Bytes) :
    (b.length < 2 ∧ Frame.new b = .err) ∨
    ∃ o0 o1 l, b = o0 :: o1 :: l ∧
      match designated b (decodeFc o0 o1).frameType (decodeFc o0 o1).frameVersion with
      | none => Frame.new b = .err
      | some (.beacon _) => Frame.new b = .panic
      | some (.ack _) => (b.length = 3 ∧ Frame.new b = .ok (.ack b)) ∨
          (b.length ≠ 3 ∧ Frame.new b = .err)
      | some (.enhancedAck _) => Frame.new b = .ok (.enhancedAck b)
      | some (.enhancedBeacon _) => (Acceptable b ∧ Frame.new b = .ok (.enhancedBeacon b)) ∨
          (¬ Acceptable b ∧ Frame.new b = .err)
      | some (.data _) => (Acceptable b ∧ Frame.new b = .ok (.data b)) ∨
          (¬ Acceptable b ∧ Frame.new b = .err) := by
  by_cases h2 : b.length < 2
  · exact .inl ⟨h2, by simp [Frame.new, h2]⟩
  right
  obtain ⟨o0, o1, l, rfl⟩ := exists_cons2 (by omega : 2 ≤ b.length)
  refine ⟨o0, o1, l, rfl, ?_⟩
  have e : Frame.new (o0 :: o1 :: l) =
      match (decodeFc o0 o1).frameType with
      | .ack =>
        match (decodeFc o0 o1).frameVersion with
        | .v2003 | .v2006 => do let a ← Ack.new (o0 :: o1 :: l); .ok (.ack a)
        | .v2020 => do let a ← EnhancedAck.new (o0 :: o1 :: l); .ok (.enhancedAck a)
        | .unknown => .err
      | .beacon =>
        match (decodeFc o0 o1).frameVersion with
        | .v2003 | .v2006 => do let a ← Beacon.new (o0 :: o1 :: l); .ok (.beacon a)
        | .v2020 => do let a ← EnhancedBeacon.new (o0 :: o1 :: l); .ok (.enhancedBeacon a)
        | .unknown => .err
      | .data => do let a ← DataFrame.new (o0 :: o1 :: l); .ok (.data a)
      | _ => .err := by
    have hs : sliceTo (o0 :: o1 :: l) 2 = .ok [o0, o1] := by simp [sliceTo]
    have hf : FrameControl.new [o0, o1] = .ok [o0, o1] := by simp [FrameControl.new]
    simp only [Frame.new, if_neg h2, hs, hf, bind_ok, fc_frameType, fc_version]
    cases (decodeFc o0 o1).frameType <;> cases (decodeFc o0 o1).frameVersion <;> rfl
  rw [e]
  have hack : Ack.new (o0 :: o1 :: l) = if (o0 :: o1 :: l).length = 3 then .ok (o0 :: o1 :: l) else .err := rfl
  have heb : EnhancedBeacon.new (o0 :: o1 :: l) = DataFrame.new (o0 :: o1 :: l) := rfl
  cases ht : (decodeFc o0 o1).frameType <;> cases hv : (decodeFc o0 o1).frameVersion <;>
    simp only [designated, heb, hack, Beacon.new, EnhancedAck.new, bind_panic, bind_ok] <;>
    first
      | (rcases C09_new (o0 :: o1 :: l) with ⟨ha, hn⟩ | ⟨ha, hn⟩ <;> simp [ha, hn]; done)
      | (by_cases h3 : (o0 :: o1 :: l).length = 3
         · exact .inl ⟨h3, by rw [if_pos h3]; rfl⟩
         · exact .inr ⟨h3, by rw [if_neg h3]; rfl⟩)

/-- Which of the five kinds of frame a converter is for. -/
def converterFor (t : FrameType) (v : FrameVersion) : Frame → Out Bytes :=
  match t, v with
  | .ack, .v2003 | .ack, .v2006 => Frame.intoAck
  | .ack, _ => Frame.intoEnhancedAck
  | .beacon, .v2003 | .beacon, .v2006 => Frame.intoBeacon
  | .beacon, _ => Frame.intoEnhancedBeacon
  | _, _ => Frame.intoData

/-- **C14**, the converters: of a frame `Frame::new` accepts, the converter for the kind its frame
control designates returns a view of the same bytes, and so does no other converter: they panic. -/
theorem C14_into (b : Bytes) (f : Frame) (h : Frame.new b = .ok f) :
    ∃ o0 o1 l, b = o0 :: o1 :: l ∧
      converterFor (decodeFc o0 o1).frameType (decodeFc o0 o1).frameVersion f = .ok b ∧
      ((decodeFc o0 o1).frameType = .data ↔ f.intoData = .ok b) ∧
      ((decodeFc o0 o1).frameType = .ack ∧ (decodeFc o0 o1).frameVersion = .v2020 ↔
        f.intoEnhancedAck = .ok b) ∧
      ((decodeFc o0 o1).frameType = .ack ∧ (decodeFc o0 o1).frameVersion ≠ .v2020 ↔
        f.intoAck = .ok b) ∧
      ((decodeFc o0 o1).frameType = .beacon ↔ f.intoEnhancedBeacon = .ok b) ∧
      f.intoBeacon = .panic ∧
      ∀ c ∈ [Frame.intoAck, Frame.intoEnhancedAck, Frame.intoBeacon, Frame.intoEnhancedBeacon,
        Frame.intoData], c f = .ok b ∨ c f = .panic := by
  rcases C14_dispatch_partial b with ⟨-, e⟩ | ⟨o0, o1, l, hb, hm⟩
  · rw [e] at h; cases h
  refine ⟨o0, o1, l, hb, ?_⟩
  cases ht : (decodeFc o0 o1).frameType <;> cases hv : (decodeFc o0 o1).frameVersion <;>
    simp only [ht, hv, designated] at hm <;>
    (try rw [hm] at h) <;> (try cases h) <;>
    first
      | (rcases hm with ⟨-, e⟩ | ⟨-, e⟩ <;> rw [e] at h <;> cases h <;>
          simp [converterFor, Frame.intoAck, Frame.intoEnhancedAck, Frame.intoBeacon,
            Frame.intoEnhancedBeacon, Frame.intoData])
      | simp [converterFor, Frame.intoAck, Frame.intoEnhancedAck, Frame.intoBeacon,
            Frame.intoEnhancedBeacon, Frame.intoData]

/-- A data frame and an immediate acknowledgment, converted. -/
example : Frame.new [0x02, 0x00, 0x05] = .ok (.ack [0x02, 0x00, 0x05]) ∧
    (Frame.ack [0x02, 0x00, 0x05]).intoAck = .ok [0x02, 0x00, 0x05] ∧
    (Frame.ack [0x02, 0x00, 0x05]).intoData = .panic := by decide

end Dot15d4.Props
