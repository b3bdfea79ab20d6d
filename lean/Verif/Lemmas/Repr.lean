import Verif.Spec.Repr
import Verif.Props.Tsch

/-! # What the `emit` functions of the representations write -/

namespace Dot15d4
open Out Spec Props

theorem u16bytes_le16 (w : BitVec 16) : u16bytes w = le16 w.toNat := by
  rw [← panBytes_some]; rfl

theorem le16_length (n : Nat) : (le16 n).length = 2 := rfl

theorem le16_toNat {n : Nat} (h : n < 65536) : le16 n = u16bytes (BitVec.ofNat 16 n) := by
  rw [u16bytes_le16, BitVec.toNat_ofNat, Nat.mod_eq_of_lt h]

theorem sumBy_flatten {α : Type} (len : α → Nat) (enc : α → Bytes) (l : List α)
    (h : ∀ x ∈ l, (enc x).length = len x) : ((l.map enc).flatten).length = sumBy len l := by
  induction l with
  | nil => rfl
  | cons x l ih =>
    simp only [List.map_cons, List.flatten_cons, List.length_append, sumBy]
    rw [h x (by simp), ih fun y hy => h y (by simp [hy])]

/-- The emission loop writes the encodings one after the other and keeps the rest. -/
theorem emitAll_eq {α : Type} (len : α → Nat) (emit : α → Bytes → Out Bytes) (enc : α → Bytes) :
    ∀ (l : List α), (∀ x ∈ l, ∀ b : Bytes, b.length = len x → emit x b = .ok (enc x)) →
    (∀ x ∈ l, (enc x).length = len x) →
    ∀ (pre mid post : Bytes), mid.length = sumBy len l →
    emitAll len emit l pre.length (pre ++ mid ++ post) =
      .ok (pre ++ (l.map enc).flatten ++ post, pre.length + sumBy len l) := by
  intro l
  induction l with
  | nil =>
    intro _ _ pre mid post hm
    have : mid = [] := by simpa [sumBy] using hm
    subst this
    simp [emitAll, sumBy]
  | cons x l ih =>
    intro h1 h2 pre mid post hm
    simp only [sumBy] at hm
    have e : pre ++ mid ++ post = pre ++ (mid.take (len x)) ++ (mid.drop (len x) ++ post) := by
      rw [List.append_assoc, List.append_assoc, ← List.append_assoc (mid.take _),
        List.take_append_drop]
    have hl : (mid.take (len x)).length = len x := by rw [List.length_take]; omega
    have hx : emit x (mid.take (len x)) = .ok (enc x) := h1 x (by simp) _ hl
    have hlx := h2 x (by simp)
    have := modifyAt_append pre (mid.take (len x)) (enc x) (mid.drop (len x) ++ post) (emit x) hx
    rw [hl] at this
    rw [e, emitAll, this]
    simp only [bind_ok]
    have := ih (fun y hy => h1 y (by simp [hy])) (fun y hy => h2 y (by simp [hy]))
      (pre ++ enc x) (mid.drop (len x)) post (by rw [List.length_drop]; omega)
    rw [List.length_append, hlx] at this
    rw [← List.append_assoc, this]
    simp [sumBy, Nat.add_assoc]

theorem modifyFrom_append (pre mid mid' : Bytes) (f : Bytes → Out Bytes) (h : f mid = .ok mid') :
    modifyFrom (pre ++ mid) pre.length f = .ok (pre ++ mid') := by
  rw [modifyFrom, sliceFrom_ok (by simp)]
  simp [h]

/-! ## Header elements -/

theorem wSetTime_eq (t : I64) :
    TimeCorrection.wSetTime t = (t.setWidth 12).setWidth 16 := by
  apply BitVec.eq_of_getLsbD_eq
  intro i hi
  simp only [TimeCorrection.wSetTime, BitVec.getLsbD_sshiftRight,
    BitVec.getLsbD_shiftLeft, BitVec.getLsbD_and, BitVec.getLsbD_setWidth,
    BitVec.msb_eq_getLsbD_last]
  interval_cases i <;> simp [-BitVec.getLsbD_eq_getElem]

theorem emit_timeCorrection (r : TimeCorrectionRepr) (b : Bytes) (h : b.length = 2) :
    r.emit b = .ok (Spec.timeCorrection r) := by
  obtain ⟨b0, b1, l, rfl⟩ := exists_cons2 (b := b) (by omega)
  have hl : l = [] := by simpa using h
  subst hl
  obtain ⟨⟨t⟩, n⟩ := r
  simp only [TimeCorrectionRepr.emit, TimeCorrection.setTimeCorrection, updU16_cons, bind_ok,
    Duration.asUs, Spec.timeCorrection]
  rw [TimeCorrection.setNack, updU16_u16bytes, List.append_nil, u16bytes_le16]
  congr 2
  have hlow : (TimeCorrection.wSetTime t).toNat = (t.toInt % 4096).toNat := by
    rw [wSetTime_eq]
    simp only [BitVec.toNat_setWidth]
    have := t.isLt
    rw [BitVec.toInt_eq_toNat_cond]
    split <;> omega
  have hlt : (t.toInt % 4096).toNat < 4096 := by omega
  rw [← hlow] at hlt ⊢
  generalize TimeCorrection.wSetTime t = w at *
  have hz : ∀ i, 12 ≤ i → w.getLsbD i = false := fun i hi => getLsbD_of_lt (k := 12) hlt hi
  cases n with
  | true =>
    simp only [if_true]
    have : w &&& 0x8000#16 = 0#16 := by
      apply BitVec.eq_of_getLsbD_eq
      intro i hi
      have h15 := hz 15 (by omega)
      rw [BitVec.getLsbD_and]
      interval_cases i <;> simp [-BitVec.getLsbD_eq_getElem, h15]
    rw [← BitVec.add_eq_or_of_and_eq_zero _ _ this, BitVec.toNat_add]
    simp; omega
  | false =>
    simp only [Bool.false_eq_true, if_false, Nat.add_zero]
    congr 1
    apply BitVec.eq_of_getLsbD_eq
    intro i hi
    have h15 := hz 15 (by omega)
    rw [BitVec.getLsbD_and]
    interval_cases i <;> simp [-BitVec.getLsbD_eq_getElem, h15]

theorem encodeHeader_length (r : HeaderIeRepr) : (encodeHeader r).length = r.bufferLen := by
  cases r <;> rfl

theorem emit_header (r : HeaderIeRepr) (b : Bytes) (h : b.length = r.bufferLen) :
    r.emit b = .ok (encodeHeader r) := by
  obtain ⟨b0, b1, l, rfl⟩ := exists_cons2 (b := b) (by rw [h, HeaderIeRepr.bufferLen]; omega)
  have hl : l.length = r.innerLen := by simp [HeaderIeRepr.bufferLen] at h; omega
  cases r with
  | timeCorrection tc =>
    obtain ⟨c0, c1, m, rfl⟩ := exists_cons2 (b := l)
      (by simp [HeaderIeRepr.innerLen, TimeCorrectionRepr.bufferLen] at hl; omega)
    have hm : m = [] := by
      simpa [HeaderIeRepr.innerLen, TimeCorrectionRepr.bufferLen] using hl
    subst hm
    have e := modifyFrom_append [0x02, 0x0f] [0, 0] _
      (HeaderIeRepr.emitContent (.timeCorrection tc)) (emit_timeCorrection tc [0, 0] rfl)
    have e1 : HeaderIe.clear [b0, b1, c0, c1] = 0 :: 0 :: [0, 0] := rfl
    simp only [HeaderIeRepr.emit, e1, HeaderIe.setLength, updU16_cons, bind_ok,
      HeaderIe.setElementId]
    rw [updU16_u16bytes]
    simp only [bind_ok, HeaderIeRepr.innerLen, TimeCorrectionRepr.bufferLen,
      HeaderIeRepr.elementId]
    have ew : u16bytes ((u16le 0 0 &&& ~~~254#16 ||| BitVec.ofNat 16 2 &&& 254#16) &&& ~~~32640#16 |||
            HeaderElementId.timeCorrection.toU16 <<< 7 &&& 32640#16) = [0x02, 0x0f] := by decide
    rw [ew]
    have eh : encodeHeader (.timeCorrection tc) = [0x02, 0x0f] ++ Spec.timeCorrection tc := by
      rw [encodeHeader, headerElement, show (Spec.timeCorrection tc).length = 2 from rfl]
      rfl
    rw [eh]
    exact e
  | headerTermination1 =>
    have hm : l = [] := by simpa [HeaderIeRepr.innerLen] using hl
    subst hm
    rfl
  | headerTermination2 =>
    have hm : l = [] := by simpa [HeaderIeRepr.innerLen] using hl
    subst hm
    rfl

/-! ## Nested elements -/

theorem emit_sync (r : TschSynchronizationRepr) (b : Bytes) (h : b.length = 6) :
    r.emit b = .ok (encodeSync r) := by
  match b, h with
  | [x0, x1, x2, x3, x4, x5], _ =>
    simp only [TschSynchronizationRepr.emit, TschSynchronization.setAbsoluteSlotNumber,
      TschSynchronization.setJoinMetric, setIdx, encodeSync, le16]
    simp
    have e2 : ∀ y : BitVec 8, y &&& 255#8 = y := by decide
    simp only [e2]
    refine ⟨trivial, ?_, ?_, ?_, ?_⟩ <;>
    · apply BitVec.eq_of_toNat_eq
      simp only [BitVec.toNat_setWidth, BitVec.toNat_ofNat, BitVec.toNat_ushiftRight,
        Nat.shiftRight_eq_div_pow]
      try omega

theorem encodeLink_length (r : LinkInformationRepr) : (ofLinkRepr r).encode.length = 5 := by
  simp [Link.encode]

theorem emit_link (r : LinkInformationRepr) (b : Bytes) (h : b.length = 5) :
    r.emit b = .ok (ofLinkRepr r).encode := by
  match b, h with
  | [x0, x1, x2, x3, x4], _ =>
    simp [LinkInformationRepr.emit, LinkInformation.setTimeslot, LinkInformation.setChannelOffset,
      LinkInformation.setLinkOptions, modifyTo, modifyAt, modifyFrom, sliceTo, sliceFrom,
      copyFromSlice, setIdx, Link.encode, ofLinkRepr, u16bytes]

theorem encodeSlotframe_length (r : SlotframeDescriptorRepr) :
    (ofSlotframeRepr r).encode.length = r.bufferLen := by
  rw [slotframe_encode_length]
  simp [ofSlotframeRepr, SlotframeDescriptorRepr.bufferLen]; omega

theorem sumBy_const {α : Type} (k : Nat) (l : List α) : sumBy (fun _ => k) l = l.length * k := by
  induction l with
  | nil => simp [sumBy]
  | cons x l ih => simp [sumBy, ih, Nat.add_mul]; omega

theorem emit_slotframe (r : SlotframeDescriptorRepr) (b : Bytes) (h : b.length = r.bufferLen) :
    r.emit b = .ok (ofSlotframeRepr r).encode := by
  simp only [SlotframeDescriptorRepr.bufferLen] at h
  match b, h with
  | [], h | [_], h | [_, _], h | [_, _, _], h => (simp at h; try omega)
  | x0 :: x1 :: x2 :: x3 :: c, h =>
    have hc : c.length = r.links.length * 5 := by simp at h; omega
    have e1 : SlotframeDescriptor.setHandle (x0 :: x1 :: x2 :: x3 :: c) r.handle =
      .ok (r.handle :: x1 :: x2 :: x3 :: c) := by simp [SlotframeDescriptor.setHandle, setIdx]
    have e2 : SlotframeDescriptor.setSize (r.handle :: x1 :: x2 :: x3 :: c) r.size =
      .ok ([r.handle] ++ u16bytes r.size ++ (x3 :: c)) := by
      simp [SlotframeDescriptor.setSize, modifyAt, modifyFrom, modifyTo, sliceFrom, sliceTo,
        copyFromSlice]
    have e3 : SlotframeDescriptor.setNumberOfLinks ([r.handle] ++ u16bytes r.size ++ (x3 :: c))
        (BitVec.ofNat 8 r.links.length) =
      .ok (([r.handle] ++ u16bytes r.size ++ [BitVec.ofNat 8 r.links.length]) ++ c) := by
      simp [SlotframeDescriptor.setNumberOfLinks, setIdx, u16bytes]
    have e4 := emitAll_eq LinkInformationRepr.bufferLen LinkInformationRepr.emit
      (fun k => (ofLinkRepr k).encode) r.links (fun x _ b hb => emit_link x b hb)
      (fun x _ => encodeLink_length x) [] c []
      (by rw [hc]; exact (sumBy_const 5 r.links).symm)
    simp only [List.nil_append, List.append_nil, List.length_nil] at e4
    have e5 := modifyFrom_append ([r.handle] ++ u16bytes r.size ++ [BitVec.ofNat 8 r.links.length])
      c ((r.links.map fun k => (ofLinkRepr k).encode).flatten)
      (fun c => do
        let p ← emitAll LinkInformationRepr.bufferLen LinkInformationRepr.emit r.links 0 c
        .ok p.1) (by simp only [e4, bind_ok])
    simp only [SlotframeDescriptorRepr.emit, e1, e2, e3, bind_ok]
    rw [show ([r.handle] ++ u16bytes r.size ++ [BitVec.ofNat 8 r.links.length]).length = 4 by rfl] at e5
    rw [e5]
    simp [Slotframe.encode, ofSlotframeRepr, Function.comp_def]

theorem encodeSlotframes_length (r : TschSlotframeAndLinkRepr) :
    (encodeSlotframes (r.slotframeDescriptors.map ofSlotframeRepr)).length = r.bufferLen := by
  rw [encodeSlotframes, List.map_map]
  simp only [List.length_cons, TschSlotframeAndLinkRepr.bufferLen]
  rw [sumBy_flatten SlotframeDescriptorRepr.bufferLen (Slotframe.encode ∘ ofSlotframeRepr) _
    (fun x _ => encodeSlotframe_length x)]
  omega

theorem emit_slotframes (r : TschSlotframeAndLinkRepr) (b : Bytes) (h : b.length = r.bufferLen) :
    r.emit b = .ok (encodeSlotframes (r.slotframeDescriptors.map ofSlotframeRepr)) := by
  simp only [TschSlotframeAndLinkRepr.bufferLen] at h
  match b, h with
  | [], h => simp at h; omega
  | x0 :: c, h =>
    have hc : c.length = sumBy SlotframeDescriptorRepr.bufferLen r.slotframeDescriptors := by
      simp at h; omega
    have e1 : TschSlotframeAndLink.setNumberOfSlotframes (x0 :: c)
        (BitVec.ofNat 8 r.slotframeDescriptors.length) =
      .ok ([BitVec.ofNat 8 r.slotframeDescriptors.length] ++ c) := by
      simp [TschSlotframeAndLink.setNumberOfSlotframes, setIdx]
    have e4 := emitAll_eq SlotframeDescriptorRepr.bufferLen SlotframeDescriptorRepr.emit
      (fun k => (ofSlotframeRepr k).encode) r.slotframeDescriptors
      (fun x _ b hb => emit_slotframe x b hb) (fun x _ => encodeSlotframe_length x) [] c [] hc
    simp only [List.nil_append, List.append_nil, List.length_nil] at e4
    have e5 := modifyFrom_append [BitVec.ofNat 8 r.slotframeDescriptors.length]
      c ((r.slotframeDescriptors.map fun k => (ofSlotframeRepr k).encode).flatten)
      (fun c => do
        let p ← emitAll SlotframeDescriptorRepr.bufferLen SlotframeDescriptorRepr.emit
          r.slotframeDescriptors 0 c
        .ok p.1) (by simp only [e4, bind_ok])
    simp only [TschSlotframeAndLinkRepr.emit, e1, bind_ok]
    rw [List.length_singleton] at e5
    rw [e5]
    simp [encodeSlotframes, Function.comp_def]

theorem timingsBytes_eq (t : TschTimeslotTimings) (h : TimingsFit t) :
    timingsBytes t = encodeTimings t := by
  have k16 : ∀ d : Duration, Fits 16 d → u16bytes (d.asUs.setWidth 16) = le16 (us d) := by
    intro d hd
    rw [u16bytes_le16]
    congr 1
    have := hd.toInt; have := hd.toNat
    simp only [BitVec.toNat_setWidth, us]; omega
  have k24 : ∀ d : Duration, Fits 24 d →
      (u32bytes (d.asUs.setWidth 32)).take 3 = le24 (us d) := by
    intro d hd
    have h1 := hd.toInt; have h2 := hd.toNat
    have h3 : us d = d.asUs.toNat := by simp only [us]; omega
    rw [h3]
    simp only [u32bytes, le24, List.take_succ_cons, List.take_zero]
    congr 1
    · apply BitVec.eq_of_toNat_eq; simp only [BitVec.toNat_setWidth, BitVec.toNat_ofNat]; omega
    congr 1
    · apply BitVec.eq_of_toNat_eq
      simp only [BitVec.toNat_setWidth, BitVec.toNat_ofNat, BitVec.toNat_ushiftRight,
        Nat.shiftRight_eq_div_pow]; omega
    congr 1
    · apply BitVec.eq_of_toNat_eq
      simp only [BitVec.toNat_setWidth, BitVec.toNat_ofNat, BitVec.toNat_ushiftRight,
        Nat.shiftRight_eq_div_pow]; omega
  obtain ⟨f1, f2, f3, f4, f5, f6, f7, f8, f9, f10, f11, f12⟩ := h
  simp only [timingsBytes, encodeTimings]
  rw [k16 _ f1, k16 _ f2, k16 _ f3, k16 _ f4, k16 _ f5, k16 _ f6, k16 _ f7, k16 _ f8, k16 _ f9,
    k16 _ f10, k24 _ f11, k24 _ f12]
  have g1 := f11.toInt; have g2 := f12.toInt
  by_cases hc : t.maxTx.asUs.toInt > 65535 ∨ t.timeslotLength.asUs.toInt > 65535
  · rw [if_pos hc, if_neg (by simp only [us]; omega)]
    simp
  · rw [if_neg hc, if_pos (by simp only [us]; omega)]
    have f11' : Fits 16 t.maxTx := ⟨f11.1, by omega⟩
    have f12' : Fits 16 t.timeslotLength := ⟨f12.1, by omega⟩
    rw [k16 _ f11', k16 _ f12']
    simp

theorem TimeslotOk.fit {t : TschTimeslotTimings} (h : TimeslotOk (.custom t)) :
    t.id ≠ 0 ∧ TimingsFit t := h

theorem timingsSize_eq {t : TschTimeslotTimings} (h : TimingsFit t) :
    (TschTimeslotRepr.custom t).bufferLen = timingsSize t := by
  have := wide_eq h
  simp only [TschTimeslot.wide] at this
  simp only [TschTimeslotRepr.bufferLen, timingsSize, this, decide_eq_true_eq]

theorem timingsBytes_length (t : TschTimeslotTimings) :
    (timingsBytes t).length = timingsSize t := by
  simp only [timingsBytes, timingsSize]; split <;> simp [u32bytes]

theorem encodeTimeslot_length (r : TschTimeslotRepr) (ho : TimeslotOk r) :
    (encodeTimeslot r).length = r.bufferLen := by
  cases r with
  | default i => rfl
  | custom t =>
    rw [encodeTimeslot, ← timingsBytes_eq t (TimeslotOk.fit ho).2, timingsBytes_length, timingsSize_eq (TimeslotOk.fit ho).2]

theorem emit_timeslot (r : TschTimeslotRepr) (ho : TimeslotOk r) (b : Bytes)
    (h : b.length = r.bufferLen) : r.emit b = .ok (encodeTimeslot r) := by
  cases r with
  | default i =>
    match b, h with
    | [x], _ => simp [TschTimeslotRepr.emit, TschTimeslot.setTimeslotId, setIdx, encodeTimeslot]
    | [], h => simp [TschTimeslotRepr.bufferLen] at h
    | _ :: _ :: _, h => simp [TschTimeslotRepr.bufferLen] at h
  | custom t =>
    rw [timingsSize_eq (TimeslotOk.fit ho).2] at h
    rw [TschTimeslotRepr.emit, C22_write b t (TimeslotOk.fit ho).2 (by omega), ← h, List.drop_length,
      List.append_nil, timingsBytes_eq t (TimeslotOk.fit ho).2]
    rfl

/-- The content of a nested element. -/
def nestedContent : NestedIeRepr → Bytes
  | .tschSynchronization r => encodeSync r
  | .tschTimeslot r => encodeTimeslot r
  | .tschSlotframeAndLink r => encodeSlotframes (r.slotframeDescriptors.map ofSlotframeRepr)
  | .channelHopping r => [r.hoppingSequenceId]

theorem nestedContent_length (r : NestedIeRepr) (ho : NestedOk r) :
    (nestedContent r).length = r.innerLen := by
  cases r with
  | tschSynchronization r => rfl
  | tschTimeslot r => exact encodeTimeslot_length r ho
  | tschSlotframeAndLink r => exact encodeSlotframes_length r
  | channelHopping r => rfl

theorem emitContent_nested (r : NestedIeRepr) (ho : NestedOk r) (c : Bytes)
    (h : c.length = r.innerLen) : r.emitContent c = .ok (nestedContent r) := by
  cases r with
  | tschSynchronization r => exact emit_sync r c h
  | tschTimeslot r => exact emit_timeslot r ho c h
  | tschSlotframeAndLink r => exact emit_slotframes r c h
  | channelHopping r =>
    match c, h with
    | [x], _ => simp [NestedIeRepr.emitContent, ChannelHoppingRepr.emit,
        ChannelHopping.setHoppingSequenceId, setIdx, nestedContent]
    | [], h => simp [NestedIeRepr.innerLen, ChannelHoppingRepr.bufferLen] at h
    | _ :: _ :: _, h => simp [NestedIeRepr.innerLen, ChannelHoppingRepr.bufferLen] at h

theorem innerLen_lt (r : NestedIeRepr) (ho : NestedOk r) : r.innerLen < 128 := by
  cases r with
  | tschSynchronization r => simp [NestedIeRepr.innerLen, TschSynchronizationRepr.bufferLen]
  | tschTimeslot r =>
    cases r with
    | default i => simp [NestedIeRepr.innerLen, TschTimeslotRepr.bufferLen]
    | custom t =>
      simp only [NestedIeRepr.innerLen, TschTimeslotRepr.bufferLen]; split <;> omega
  | tschSlotframeAndLink r =>
    obtain ⟨h3, h⟩ := ho
    simp only [NestedIeRepr.innerLen, TschSlotframeAndLinkRepr.bufferLen]
    have : ∀ l : List SlotframeDescriptorRepr, (∀ s ∈ l, SlotframeOk s) →
        sumBy SlotframeDescriptorRepr.bufferLen l ≤ 24 * l.length := by
      intro l
      induction l with
      | nil => simp [sumBy]
      | cons x l ih =>
        intro h
        have h1 := ih fun s hs => h s (by simp [hs])
        have h2 := (h x (by simp)).2.1
        simp only [sumBy, SlotframeDescriptorRepr.bufferLen, List.length_cons] at *
        omega
    have := this _ h
    omega
  | channelHopping r => simp [NestedIeRepr.innerLen, ChannelHoppingRepr.bufferLen]

/-- The numeric id of a sub id of the crate's nested elements. -/
def nestedCode : NestedIeRepr → Nat
  | .tschSynchronization _ => 256 * 0x1a
  | .tschTimeslot _ => 256 * 0x1c
  | .tschSlotframeAndLink _ => 256 * 0x1b
  | .channelHopping _ => 2048 * 0x09 + 32768

theorem encodeNested_eq (r : NestedIeRepr) :
    encodeNested r = le16 ((nestedContent r).length + nestedCode r) ++ nestedContent r := by
  cases r <;> simp only [encodeNested, shortElement, longElement, nestedContent, nestedCode,
    Nat.add_assoc]

theorem encodeNested_length (r : NestedIeRepr) (ho : NestedOk r) :
    (encodeNested r).length = r.bufferLen := by
  rw [encodeNested_eq, List.length_append, nestedContent_length r ho]; rfl

theorem replicate_split {n m : Nat} (h : n = m + 2) :
    List.replicate n (0 : Byte) = 0 :: 0 :: List.replicate m 0 := by
  subst h; rfl

theorem nested_word (r : NestedIeRepr) (n : Nat) (h : n < 128) :
    (((0#16 &&& ~~~(NestedIe.lenMask r.subId)) ||| (BitVec.ofNat 16 n &&& NestedIe.lenMask r.subId))
      &&& ~~~(NestedIe.idMask r.subId)) ||| NestedIe.idBits r.subId =
    BitVec.ofNat 16 (n + nestedCode r) := by
  have hz : ∀ i, 7 ≤ i → (BitVec.ofNat 16 n).getLsbD i = false := fun i hi =>
    getLsbD_of_lt (k := 7) (by rw [BitVec.toNat_ofNat]; omega) hi
  have z7 := hz 7 (by omega); have z8 := hz 8 (by omega); have z9 := hz 9 (by omega)
  have z10 := hz 10 (by omega); have z11 := hz 11 (by omega); have z12 := hz 12 (by omega)
  have z13 := hz 13 (by omega); have z14 := hz 14 (by omega); have z15 := hz 15 (by omega)
  rw [BitVec.ofNat_add, BitVec.add_eq_or_of_and_eq_zero]
  · generalize BitVec.ofNat 16 n = w at *
    apply BitVec.eq_of_getLsbD_eq
    intro i hi
    cases r <;> simp only [NestedIeRepr.subId, NestedIe.lenMask, NestedIe.idMask, NestedIe.idBits,
      NestedSubId.isShort, nestedCode, BitVec.getLsbD_or, BitVec.getLsbD_and, BitVec.getLsbD_not,
      NestedSubIdShort.toU16, NestedSubIdLong.toU16] <;>
      interval_cases i <;> simp [-BitVec.getLsbD_eq_getElem, z7, z8, z9, z10, z11, z12, z13, z14, z15]
  · generalize BitVec.ofNat 16 n = w at *
    apply BitVec.eq_of_getLsbD_eq
    intro i hi
    cases r <;> simp only [nestedCode, BitVec.getLsbD_and] <;>
      interval_cases i <;> simp [-BitVec.getLsbD_eq_getElem, z7, z8, z9, z10, z11, z12, z13, z14, z15]

theorem emit_nested (r : NestedIeRepr) (ho : NestedOk r) (b : Bytes) (h : b.length = r.bufferLen) :
    r.emit b = .ok (encodeNested r) := by
  have hi := innerLen_lt r ho
  have e1 : NestedIe.clear b = 0 :: 0 :: List.replicate r.innerLen 0 :=
    replicate_split (by rw [h, NestedIeRepr.bufferLen]; omega)
  simp only [NestedIeRepr.emit, e1]
  simp only [NestedIe.setLength, updU16_cons, bind_ok, NestedIe.setSubId]
  rw [updU16_u16bytes]
  simp only [bind_ok]
  rw [show u16le 0 0 = 0#16 by decide, nested_word r _ hi]
  have e2 := emitContent_nested r ho (List.replicate r.innerLen 0) (by simp)
  have e3 := modifyFrom_append (u16bytes (BitVec.ofNat 16 (r.innerLen + nestedCode r))) _ _
    r.emitContent e2
  rw [u16bytes_length] at e3
  rw [e3, encodeNested_eq, nestedContent_length r ho, le16_toNat]
  cases r <;> simp [nestedCode] <;> omega

/-! ## Payload elements -/

theorem payload_word (n : Nat) (h : n < 1024) :
    (((0#16 &&& ~~~0x07ff#16) ||| (BitVec.ofNat 16 n &&& 0x07ff#16)) &&& ~~~0x7800#16) |||
      (PayloadGroupId.mlme.toU16 <<< 11) ||| 0x8000#16 = BitVec.ofNat 16 (n + 2048 + 32768) := by
  have hz : ∀ i, 10 ≤ i → (BitVec.ofNat 16 n).getLsbD i = false := fun i hi =>
    getLsbD_of_lt (k := 10) (by rw [BitVec.toNat_ofNat]; omega) hi
  have z10 := hz 10 (by omega); have z11 := hz 11 (by omega); have z12 := hz 12 (by omega)
  have z13 := hz 13 (by omega); have z14 := hz 14 (by omega); have z15 := hz 15 (by omega)
  rw [Nat.add_assoc, BitVec.ofNat_add, BitVec.add_eq_or_of_and_eq_zero]
  · generalize BitVec.ofNat 16 n = w at *
    apply BitVec.eq_of_getLsbD_eq
    intro i hi
    simp only [BitVec.getLsbD_or, BitVec.getLsbD_and, BitVec.getLsbD_not, PayloadGroupId.toU16]
    interval_cases i <;> simp [-BitVec.getLsbD_eq_getElem, z10, z11, z12, z13, z14, z15]
  · generalize BitVec.ofNat 16 n = w at *
    apply BitVec.eq_of_getLsbD_eq
    intro i hi
    simp only [BitVec.getLsbD_and]
    interval_cases i <;> simp [-BitVec.getLsbD_eq_getElem, z10, z11, z12, z13, z14, z15]

theorem mlme_length (l : List NestedIeRepr) (ho : ∀ x ∈ l, NestedOk x) :
    ((l.map encodeNested).flatten).length = sumBy NestedIeRepr.bufferLen l :=
  sumBy_flatten _ _ _ fun x hx => encodeNested_length x (ho x hx)

theorem encodePayload_length (r : PayloadIeRepr) (ho : PayloadOk r) :
    (encodePayload r).length = r.bufferLen := by
  cases r with
  | mlme l =>
    simp only [encodePayload, payloadElement, List.length_append, mlme_length l ho.2.1,
      PayloadIeRepr.bufferLen, PayloadIeRepr.innerLen]
    rfl
  | payloadTermination => exact ho.elim

theorem emit_payload (r : PayloadIeRepr) (ho : PayloadOk r) (b : Bytes)
    (h : b.length = r.bufferLen) : r.emit b = .ok (encodePayload r) := by
  cases r with
  | payloadTermination => exact ho.elim
  | mlme l =>
    have hlen := mlme_length l ho.2.1
    have hlt := ho.2.2
    rw [hlen] at hlt
    have e1 : PayloadIe.clear b = 0 :: 0 :: List.replicate (sumBy NestedIeRepr.bufferLen l) 0 :=
      replicate_split (by rw [h, PayloadIeRepr.bufferLen, PayloadIeRepr.innerLen]; omega)
    simp only [PayloadIeRepr.emit, e1, PayloadIeRepr.innerLen, PayloadIeRepr.groupId]
    simp only [PayloadIe.setLength, updU16_cons, bind_ok, PayloadIe.setGroupId]
    rw [updU16_u16bytes]
    simp only [bind_ok]
    rw [show u16le 0 0 = 0#16 by decide, payload_word _ hlt]
    have e2 := emitAll_eq NestedIeRepr.bufferLen NestedIeRepr.emit encodeNested l
      (fun x hx b hb => emit_nested x (ho.2.1 x hx) b hb)
      (fun x hx => encodeNested_length x (ho.2.1 x hx)) []
      (List.replicate (sumBy NestedIeRepr.bufferLen l) 0) [] (by simp)
    simp only [List.nil_append, List.append_nil, List.length_nil] at e2
    have e3 := modifyFrom_append
      (u16bytes (BitVec.ofNat 16 (sumBy NestedIeRepr.bufferLen l + 2048 + 32768))) _ _
      (PayloadIeRepr.emitContent (.mlme l))
      (show PayloadIeRepr.emitContent (.mlme l)
        (List.replicate (sumBy NestedIeRepr.bufferLen l) 0) = .ok (l.map encodeNested).flatten by
        simp only [PayloadIeRepr.emitContent, e2, bind_ok])
    rw [u16bytes_length] at e3
    rw [e3, encodePayload, payloadElement, hlen, le16_toNat (by omega)]

end Dot15d4
