import Verif.Spec.Layout
import Verif.Props.Reuse
import Verif.Props.Fuzz

/-! # C95: the octets of a built frame are those the standard prescribes -/

namespace Dot15d4.Props
open Out Spec

/-- **C95** in full: whatever was asked for, once the builder has accepted it, what is emitted is the
frame the standard prescribes. -/
def C95_statement : Prop := ∀ s cs f, build s cs = .ok f → NoAbsent cs →
  (wantsElements cs = true → ElementsOk ⟨wantedHeader cs, wantedElements cs⟩) →
  ∃ n, f.bufferLen = .ok n ∧ f.emit (List.replicate n 0) = .ok (frameOctets s cs)

/-- Two octets read as the number whose fields they hold. -/
theorem fcWord_decode (o0 o1 : Byte) :
    fcWord (decodeFc o0 o1) + 128 * (fcBit o0 o1 7).toNat = o0.toNat + 256 * o1.toNat := by
  have h0 : ∀ o : Byte, typeNumber (frameTypeCode (o.toNat % 8)) +
      8 * (decide (o.toNat / 2 ^ 3 % 2 = 1)).toNat + 16 * (decide (o.toNat / 2 ^ 4 % 2 = 1)).toNat +
      32 * (decide (o.toNat / 2 ^ 5 % 2 = 1)).toNat + 64 * (decide (o.toNat / 2 ^ 6 % 2 = 1)).toNat +
      128 * (decide (o.toNat / 2 ^ 7 % 2 = 1)).toNat = o.toNat := by decide +kernel
  have h1 : ∀ o : Byte, (decide (o.toNat / 2 ^ 0 % 2 = 1)).toNat +
      2 * (decide (o.toNat / 2 ^ 1 % 2 = 1)).toNat + 4 * modeNumber (modeCode (o.toNat / 4 % 4)) +
      16 * versionNumber (versionCode (o.toNat / 16 % 4)) +
      64 * modeNumber (modeCode (o.toNat / 64 % 4)) = o.toNat := by decide +kernel
  have a := h0 o0
  have b := h1 o1
  have l0 := o0.isLt
  have e0 : fcField o0 o1 0 3 = o0.toNat % 8 := by unfold fcField; omega
  have e1 : fcField o0 o1 10 2 = o1.toNat / 4 % 4 := by unfold fcField; omega
  have e2 : fcField o0 o1 12 2 = o1.toNat / 16 % 4 := by unfold fcField; omega
  have e3 : fcField o0 o1 14 2 = o1.toNat / 64 % 4 := by unfold fcField; omega
  simp only [fcWord, decodeFc, e0, e1, e2, e3, fcBit, Nat.lt_irrefl, Nat.reduceLT, if_true, if_false,
    Nat.reduceSub]
  omega

/-- The two octets are those of the number. -/
theorem wire16_fc {o0 o1 : Byte} {r : FrameControlRepr} (h : decodeFc o0 o1 = r)
    (h7 : fcBit o0 o1 7 = false) : wire16 (fcWord r) = [o0, o1] := by
  have e := fcWord_decode o0 o1
  rw [h, h7] at e
  simp only [Bool.toNat_false, Nat.mul_zero, Nat.add_zero] at e
  rw [e, wire16]
  have l0 := o0.isLt
  have l1 := o1.isLt
  congr 1
  · apply BitVec.eq_of_toNat_eq; simp; omega
  · congr 1
    apply BitVec.eq_of_toNat_eq; simp; omega

private theorem exact2020 (a : AddressingFieldsRepr) (p) (hd : a.dstAddress ≠ some .absent)
    (hs : a.srcAddress ≠ some .absent) (h : FrameBuilder.compress2020 a = .ok p) :
    p = (compressionBit .v2020 a.dstAddress a.srcAddress p.2.dstPanId p.2.srcPanId,
      ⟨a.dstPanId, a.dstAddress, if a.srcAddress.isNone then none
        else if a.dstAddress.isSome ∧ a.srcPanId = a.dstPanId then none else a.srcPanId,
        a.srcAddress⟩) := by
  obtain ⟨dp, d, sp, s⟩ := a
  simp only at hd hs
  rcases d with _ | (_ | d | d) <;> rcases s with _ | (_ | s | s) <;>
    first
    | exact absurd rfl hd
    | exact absurd rfl hs
    | (rcases dp with _ | dp <;> rcases sp with _ | sp <;>
        simp only [FrameBuilder.compress2020, reduceCtorEq, ok.injEq] at h <;>
        first
        | (subst h; rfl)
        | (unfold FrameBuilder.sameOrNot at h
           split at h
           · rename_i e; subst e; subst h; simp [compressionBit]
           · rename_i e; subst h; simp [compressionBit, Ne.symm e]))

private theorem exact2006 (a : AddressingFieldsRepr) (p) (hd : a.dstAddress ≠ some .absent)
    (hs : a.srcAddress ≠ some .absent) (h : FrameBuilder.compress2006 false a = .ok p) :
    p = (compressionBit .v2006 a.dstAddress a.srcAddress p.2.dstPanId p.2.srcPanId,
      ⟨if a.dstAddress.isSome then a.dstPanId else none, a.dstAddress,
        if a.srcAddress.isNone then none
        else if a.dstAddress.isSome ∧ a.srcPanId = a.dstPanId then none else a.srcPanId,
        a.srcAddress⟩) := by
  obtain ⟨dp, d, sp, s⟩ := a
  simp only at hd hs
  rcases d with _ | (_ | d | d) <;> rcases s with _ | (_ | s | s) <;>
    first
    | exact absurd rfl hd
    | exact absurd rfl hs
    | (rcases dp with _ | dp <;> rcases sp with _ | sp <;>
        simp only [FrameBuilder.compress2006, reduceCtorEq, ok.injEq] at h <;>
        first
        | (subst h; rfl)
        | (split at h
           · rename_i e; subst e; simp only [ok.injEq] at h; subst h; simp [compressionBit]
           · rename_i e; simp only [ok.injEq] at h; subst h; simp [compressionBit, Ne.symm e]))

/-- The addressing fields of a built frame, exactly. -/
theorem built_exact {s : Start} {cs : List Call} {f : FrameRepr} (h : build s cs = .ok f)
    (ha : NoAbsent cs)
    (hi : IsImmAck s cs → lastOf Call.dst? cs = none ∧ lastOf Call.src? cs = none) :
    f.frameControl = sentFc s cs ∧ addrOctets f =
      addressing (sentDstPan s cs) ((lastOf Call.dst? cs).getD .absent) (sentSrcPan cs)
        ((lastOf Call.src? cs).getD .absent) ∧
    (¬ IsImmAck s cs → f.addressingFields =
      some ⟨sentDstPan s cs, lastOf Call.dst? cs, sentSrcPan cs, lastOf Call.src? cs⟩) := by
  obtain ⟨-, h⟩ := build_cases h
  have hd := last_dst_ne cs ha
  have hs := last_src_ne cs ha
  have e1 : (expected s cs).frameControl.frameVersion = wantedVersion s cs := rfl
  have e2 : (expected s cs).frameControl.frameType = s.type := rfl
  have e3 : (expected s cs).addressingFields = if wantsAddressing cs then some
    ⟨lastOf Call.dstPan? cs, lastOf Call.dst? cs, lastOf Call.srcPan? cs, lastOf Call.src? cs⟩
    else none := rfl
  have e4 : (expected s cs).frameControl.panIdCompression = false := rfl
  rw [FrameBuilder.finalize, e1, e2, e3, e4] at h
  by_cases hv : wantedVersion s cs = .v2020
  · rw [if_pos hv] at h
    by_cases hw : wantsAddressing cs = true
    · rw [if_pos hw] at h
      obtain ⟨p, h1, h2⟩ := bind_eq_ok.mp h
      simp only [ok.injEq] at h2
      have k := exact2020 _ p hd hs h1
      simp only at k
      have k2 : p.2 = ⟨sentDstPan s cs, lastOf Call.dst? cs, sentSrcPan cs, lastOf Call.src? cs⟩ := by
        rw [k, show sentDstPan s cs = lastOf Call.dstPan? cs from if_pos (Or.inl hv), sentSrcPan]
      have k1 : p.1 = compressionBit (wantedVersion s cs) (lastOf Call.dst? cs)
          (lastOf Call.src? cs) (sentDstPan s cs) (sentSrcPan cs) := by
        rw [hv]
        have := congrArg Prod.fst k
        simp only [k2] at this
        exact this
      subst h2
      refine ⟨?_, ?_, fun _ => ?_⟩
      · simp only [FrameBuilder.withAddr, k1]; rfl
      · simp only [addrOctets, FrameBuilder.withAddr, k2]
      · simp only [FrameBuilder.withAddr, k2]
    · rw [if_neg hw] at h; cases h
  · have hv' : wantedVersion s cs = .v2006 := (version_cases s cs).resolve_left hv
    rw [if_neg hv] at h
    by_cases ht : s.type = .ack
    · rw [if_pos ht] at h
      obtain ⟨h1, h2⟩ := hi ⟨ht, hv'⟩
      split at h
      · cases h
      · simp only [ok.injEq] at h
        subst h
        refine ⟨?_, ?_, fun h => absurd ⟨ht, hv'⟩ h⟩
        · have : compressionBit (wantedVersion s cs) (lastOf Call.dst? cs) (lastOf Call.src? cs)
              (sentDstPan s cs) (sentSrcPan cs) = false := by rw [hv', h1, h2]; rfl
          simp only [sentFc, this]; rfl
        · simp [addrOctets, sentDstPan, sentSrcPan, h1, h2, hv', addressing, panBytes, addrBytes]
    · rw [if_neg ht] at h
      by_cases hw : wantsAddressing cs = true
      · rw [if_pos hw] at h
        obtain ⟨p, h1, h2⟩ := bind_eq_ok.mp h
        simp only [ok.injEq] at h2
        have k := exact2006 _ p hd hs h1
        simp only at k
        have k2 : p.2 = ⟨sentDstPan s cs, lastOf Call.dst? cs, sentSrcPan cs, lastOf Call.src? cs⟩ := by
          rw [k, sentDstPan, sentSrcPan]
          simp [hv]
        have k1 : p.1 = compressionBit (wantedVersion s cs) (lastOf Call.dst? cs)
            (lastOf Call.src? cs) (sentDstPan s cs) (sentSrcPan cs) := by
          rw [hv']
          have := congrArg Prod.fst k
          simp only [k2] at this
          exact this
        subst h2
        refine ⟨?_, ?_, fun _ => ?_⟩
        · simp only [FrameBuilder.withAddr, k1]; rfl
        · simp only [addrOctets, FrameBuilder.withAddr, k2]
        · simp only [FrameBuilder.withAddr, k2]
      · rw [if_neg hw] at h; cases h

/-- **C95**.  For every sequence of builder calls C29 covers, the octets emitted are those of the
specification: a function of what was asked for.  Missing: elements followed by a payload and
addresses in immediate acknowledgments (`C95_false`). -/
theorem C95_layout_partial (s : Start) (cs : List Call) (f : FrameRepr) (h : BuiltFrame s cs f) :
    ∃ n, f.bufferLen = .ok n ∧ f.emit (List.replicate n 0) = .ok (frameOctets s cs) := by
  obtain ⟨hc, ht, hw⟩ := h.parts
  have hl := frame_bufferLen hc ht
  obtain ⟨o0, o1, ho, h7, hd⟩ := emit_frame hc ht hw _ hl
  obtain ⟨x1, x2, -⟩ := built_exact h.built h.addresses h.ack
  obtain ⟨-, hq⟩ := C28_consistent_partial s cs f h.built h.addresses h.ack
  refine ⟨_, hl, hd.trans ?_⟩
  have e : tailOctets f = encodeElements ⟨wantedHeader cs, wantedElements cs⟩
      (wantedPayload s cs).isSome ++ (wantedPayload s cs).getD [] := by
    rw [tailOctets, hq.ie, hq.payload]
    by_cases hwe : wantsElements cs = true
    · rw [if_pos hwe, (h.elements hwe).2]; rfl
    · rw [if_neg hwe]
      simp only [wantsElements, Bool.or_eq_true, Bool.not_eq_true', List.isEmpty_eq_false_iff,
        not_or, not_not] at hwe
      simp [encodeElements, hwe.1, hwe.2]
  rw [frameOctets, ← x1, wire16_fc ho h7, hq.seq, x2, e]
  simp

/-- An enhanced beacon with every part, and its octets by the specification. -/
example : frameOctets .enhancedBeacon [.sequenceNumber 7, .dstPanId 0xabcd,
      .dstAddress (.short ⟨[1, 2], rfl⟩), .headerElement (.timeCorrection ⟨⟨3⟩, true⟩),
      .payloadElement (.mlme [.tschTimeslot (.default 0)])] =
    [0x00, 0x2a, 0x07, 0xcd, 0xab, 0x02, 0x01, 0x02, 0x0f, 0x03, 0x80, 0x00, 0x3f, 0x03, 0x88,
      0x01, 0x1c, 0x00] := by decide +kernel

/-- A data frame with two addresses in one network: the source PAN id is elided. -/
example : ∃ f, BuiltFrame (.data [1, 2, 3]) [.sequenceNumber 7, .dstPanId 0xabcd, .srcPanId 0xabcd,
    .dstAddress (.short ⟨[1, 2], rfl⟩), .srcAddress (.short ⟨[3, 4], rfl⟩)] f ∧
    frameOctets (.data [1, 2, 3]) [.sequenceNumber 7, .dstPanId 0xabcd, .srcPanId 0xabcd,
      .dstAddress (.short ⟨[1, 2], rfl⟩), .srcAddress (.short ⟨[3, 4], rfl⟩)] =
    [0x41, 0x98, 7, 0xcd, 0xab, 2, 1, 4, 3, 1, 2, 3] :=
  ⟨_, ⟨rfl, by decide, by decide, by decide⟩, by decide +kernel⟩

/-- The compression bit of the specification is the one the tables of C06 and C07 demand. -/
theorem C95_table (s : Start) (cs : List Call) (f : FrameRepr) (h : BuiltFrame s cs f)
    (hi : ¬ IsImmAck s cs) :
    pans (sentFc s cs).frameVersion (sentFc s cs).dstMode (sentFc s cs).srcMode
      (sentFc s cs).panIdCompression =
      some ⟨(sentDstPan s cs).isSome, (sentSrcPan cs).isSome⟩ := by
  obtain ⟨x1, -, x3⟩ := built_exact h.built h.addresses h.ack
  obtain ⟨hc, -⟩ := C28_consistent_partial s cs f h.built h.addresses h.ack
  have := hc.pan _ (x3 hi)
  rw [x1] at this
  exact this

/-- C95 in full is false: a payload behind an element makes `emit` panic. -/
theorem C95_false : ¬ C95_statement := by
  intro h
  obtain ⟨n, h1, h2⟩ := h (.data [9]) [.sequenceNumber 7, .dstPanId 5,
    .dstAddress (.short ⟨[1, 2], rfl⟩), .headerElement (.timeCorrection ⟨⟨3⟩, false⟩)] _ rfl
    (by decide) (by decide)
  have := C29_elements_payload_panics (.data [9]) [.sequenceNumber 7, .dstPanId 5,
    .dstAddress (.short ⟨[1, 2], rfl⟩), .headerElement (.timeCorrection ⟨⟨3⟩, false⟩)] _ n rfl
    (by decide) (by decide) (by decide) [9] rfl (by decide) h1
  rw [this] at h2
  cases h2

/-- A list closed by an element that does not occur in it is determined by its first 16 elements. -/
theorem take_closed {α : Type} {x : α} {a b : List α} (ha : x ∉ a) (hb : x ∉ b) (la : a.length ≤ 16)
    (lb : b.length ≤ 16) (h : (a ++ [x]).take 16 = (b ++ [x]).take 16) : a = b := by
  by_cases ea : a.length = 16
  · have k : (a ++ [x]).take 16 = a := by rw [← ea, List.take_left]
    by_cases eb : b.length = 16
    · rw [k, ← eb, List.take_left] at h; exact h
    · rw [k, List.take_of_length_le (by simp; omega)] at h
      exact absurd (h ▸ by simp) ha
  · rw [List.take_of_length_le (by simp; omega)] at h
    by_cases eb : b.length = 16
    · rw [← eb, List.take_left] at h
      exact absurd (h ▸ by simp) hb
    · rw [List.take_of_length_le (by simp; omega)] at h
      exact List.append_cancel_right h

/-- What the octets of a frame tell: everything asked for that is sent. -/
structure SameContent (s : Start) (cs : List Call) (s' : Start) (cs' : List Call) : Prop where
  type : s.type = s'.type
  version : wantedVersion s cs = wantedVersion s' cs'
  seq : wantedSeq s cs = wantedSeq s' cs'
  dst : lastOf Call.dst? cs = lastOf Call.dst? cs'
  src : lastOf Call.src? cs = lastOf Call.src? cs'
  dstPan : sentDstPan s cs = sentDstPan s' cs'
  srcPan : sentSrcPan cs = sentSrcPan cs'
  header : wantedHeader cs = wantedHeader cs'
  elements : wantedElements cs = wantedElements cs'
  payload : (wantedPayload s cs).getD [] = (wantedPayload s' cs').getD []

/-- **C95**, nothing is lost: two sequences of calls have the same octets exactly if they ask for the
same content. -/
theorem C95_injective (s s' : Start) (cs cs' : List Call) (f f' : FrameRepr) (h : BuiltFrame s cs f)
    (h' : BuiltFrame s' cs' f') : frameOctets s cs = frameOctets s' cs' ↔ SameContent s cs s' cs' := by
  constructor
  · intro e
    obtain ⟨n, d, l1, l2, -, -, l3⟩ := C29_roundtrip_partial s cs f h.built h.addresses h.ack h.elements
    obtain ⟨n', d', m1, m2, -, -, m3⟩ :=
      C29_roundtrip_partial s' cs' f' h'.built h'.addresses h'.ack h'.elements
    obtain ⟨k, k1, k2⟩ := C95_layout_partial s cs f h
    obtain ⟨k', k1', k2'⟩ := C95_layout_partial s' cs' f' h'
    rw [l1] at k1; cases k1
    rw [m1] at k1'; cases k1'
    rw [l2] at k2; cases k2
    rw [m2] at k2'; cases k2'
    rw [e, m3] at l3
    simp only [ok.injEq] at l3
    obtain ⟨x1, -, x3⟩ := built_exact h.built h.addresses h.ack
    obtain ⟨y1, -, y3⟩ := built_exact h'.built h'.addresses h'.ack
    obtain ⟨-, hq⟩ := C28_consistent_partial s cs f h.built h.addresses h.ack
    obtain ⟨-, hq'⟩ := C28_consistent_partial s' cs' f' h'.built h'.addresses h'.ack
    have efc : sentFc s' cs' = sentFc s cs := by
      have := congrArg FrameRepr.frameControl l3
      simp only [rereadFrame] at this
      rw [← x1, ← y1]; exact this
    have et : s.type = s'.type := (congrArg FrameControlRepr.frameType efc).symm
    have ev : wantedVersion s cs = wantedVersion s' cs' :=
      (congrArg FrameControlRepr.frameVersion efc).symm
    have ea : lastOf Call.dst? cs = lastOf Call.dst? cs' ∧ lastOf Call.src? cs = lastOf Call.src? cs' ∧
        sentDstPan s cs = sentDstPan s' cs' ∧ sentSrcPan cs = sentSrcPan cs' := by
      by_cases hi : IsImmAck s cs
      · have hi' : IsImmAck s' cs' := ⟨et ▸ hi.1, ev ▸ hi.2⟩
        obtain ⟨a, b⟩ := h.ack hi
        obtain ⟨a', b'⟩ := h'.ack hi'
        have v1 := hi.2
        have v2 := hi'.2
        simp [sentDstPan, sentSrcPan, a, b, a', b', v1, v2]
      · have hi' : ¬ IsImmAck s' cs' := fun c => hi ⟨et ▸ c.1, ev ▸ c.2⟩
        have := congrArg FrameRepr.addressingFields l3
        simp only [rereadFrame, rereadAddr, x3 hi, y3 hi', Option.map_some, Option.some.injEq,
          AddressingFieldsRepr.mk.injEq] at this
        obtain ⟨a, b, c, d⟩ := this
        have u : ∀ x y : Option Address, x ≠ some .absent → y ≠ some .absent →
            y.getD .absent = x.getD .absent → x = y := by
          rintro (_ | x) (_ | y) hx hy e
          · rfl
          · exact absurd (congrArg some e) hy
          · exact absurd (congrArg some e.symm) hx
          · exact congrArg some e.symm
        exact ⟨u _ _ (last_dst_ne cs h.addresses) (last_dst_ne cs' h'.addresses) b,
          u _ _ (last_src_ne cs h.addresses) (last_src_ne cs' h'.addresses) d, a.symm, c.symm⟩
    have ep : (wantedPayload s cs).getD [] = (wantedPayload s' cs').getD [] := by
      have := congrArg FrameRepr.payload l3
      simp only [rereadFrame, hq.payload, hq'.payload] at this
      have u : ∀ x : Option Bytes, (if x = some [] then none else x).getD [] = x.getD [] := by
        intro x; split
        · rename_i e; rw [e]; rfl
        · rfl
      rw [← u, ← this, u]
    have ew : wantsElements cs = wantsElements cs' := (congrArg FrameControlRepr.iePresent efc).symm
    have ee : wantedHeader cs = wantedHeader cs' ∧ wantedElements cs = wantedElements cs' := by
      have := congrArg FrameRepr.informationElements l3
      simp only [rereadFrame, hq.ie, hq'.ie, ← ew] at this
      by_cases hw : wantsElements cs = true
      · obtain ⟨⟨la, -, ha, -⟩, -⟩ := h.elements hw
        obtain ⟨⟨lb, -, hb, -⟩, -⟩ := h'.elements (ew ▸ hw)
        have na : HeaderIeRepr.headerTermination1 ∉ wantedHeader cs := fun m => ha _ m
        have nb : HeaderIeRepr.headerTermination1 ∉ wantedHeader cs' := fun m => hb _ m
        simp only [hw, if_true, Option.map_some, Option.some.injEq] at this
        by_cases p1 : wantedElements cs = [] <;> by_cases p2 : wantedElements cs' = []
        · simp only [p1, p2, if_true, InformationElementsRepr.mk.injEq] at this
          exact ⟨this.1.symm, by rw [p1, p2]⟩
        · simp [p1, p2] at this
        · simp [p1, p2] at this
        · simp only [p1, p2, if_false, InformationElementsRepr.mk.injEq] at this
          exact ⟨take_closed na nb la lb this.1.symm, this.2.symm⟩
      · simp only [wantsElements, Bool.or_eq_true, Bool.not_eq_true', List.isEmpty_eq_false_iff,
          not_or, not_not] at hw
        have hw' : ¬ wantsElements cs' = true := by rw [← ew]; simp [wantsElements, hw.1, hw.2]
        simp only [wantsElements, Bool.or_eq_true, Bool.not_eq_true', List.isEmpty_eq_false_iff,
          not_or, not_not] at hw'
        rw [hw.1, hw.2, hw'.1, hw'.2]; exact ⟨rfl, rfl⟩
    refine ⟨et, ev, ?_, ea.1, ea.2.1, ea.2.2.1, ea.2.2.2, ee.1, ee.2, ep⟩
    have := congrArg FrameRepr.sequenceNumber l3
    simp only [rereadFrame, hq.seq, hq'.seq] at this
    exact this.symm
  · rintro ⟨a, b, c, d, e, g, i, j, k, l⟩
    have ew : wantsElements cs = wantsElements cs' := by simp only [wantsElements, j, k]
    have efc : sentFc s cs = sentFc s' cs' := by simp only [sentFc, a, b, c, d, e, g, i, ew]
    have el : ∀ x y, encodeElements ⟨[], []⟩ x = encodeElements ⟨[], []⟩ y := by
      intro x y; simp [encodeElements]
    simp only [frameOctets, efc, c, d, e, g, i, j, k, l]
    congr 2
    by_cases hw : wantsElements cs = true
    · rw [(h.elements hw).2, (h'.elements (ew ▸ hw)).2]
    · have hw' : ¬ wantsElements cs' = true := by rw [← ew]; exact hw
      simp only [wantsElements, Bool.or_eq_true, Bool.not_eq_true', List.isEmpty_eq_false_iff,
          not_or, not_not] at hw'
      rw [hw'.1, hw'.2]
      exact el _ _

/-- Calls in another order, one of them overridden, ask for the same content. -/
example : SameContent (.data [1]) [.sequenceNumber 7, .dstPanId 5, .dstAddress (.short ⟨[1, 2], rfl⟩)]
    (.data [1]) [.dstAddress (.short ⟨[1, 2], rfl⟩), .sequenceNumber 9, .dstPanId 5,
      .sequenceNumber 7] := by
  constructor <;> decide

/-! ## Every history -/

/-- The octets that the addresses given would take in a frame of version 2006. -/
def addressLen (cs : List Call) : Nat :=
  (match lastOf Call.dst? cs with | none => 0 | some a => 2 + a.mode.size) +
  (match lastOf Call.src? cs with | none => 0 | some a => 2 + a.mode.size)

/-- The calls whose frame cannot be emitted: elements and a payload, or an immediate acknowledgment
with addresses and a payload at least as long as they would be. -/
def Unemittable (s : Start) (cs : List Call) : Prop :=
  (wantsElements cs = true ∧ (wantedPayload s cs).isSome) ∨
  (IsImmAck s cs ∧ 0 < addressLen cs ∧ ∃ p, wantedPayload s cs = some p ∧ addressLen cs ≤ p.length)

/-- The frame control field of an immediate acknowledgment: nothing is compressed. -/
def immediateFc (s : Start) (cs : List Call) : FrameControlRepr :=
  { sentFc s cs with panIdCompression := false }

/-- What is emitted: the frame of the specification; for an immediate acknowledgment no addresses,
although its frame control field announces those given. -/
def emittedOctets (s : Start) (cs : List Call) : Bytes :=
  if IsImmAck s cs then
    wire16 (fcWord (immediateFc s cs)) ++ (wantedSeq s cs).toList ++ (wantedPayload s cs).getD []
  else frameOctets s cs

/-- An immediate acknowledgment as built. -/
def immediate (s : Start) (cs : List Call) : FrameRepr :=
  ⟨immediateFc s cs, wantedSeq s cs, none, none, wantedPayload s cs⟩

theorem built_immediate {s : Start} {cs : List Call} {f : FrameRepr} (h : build s cs = .ok f)
    (hi : IsImmAck s cs) : f = immediate s cs ∧ wantsElements cs = false := by
  have hne : wantsElements cs = false := by
    cases hw : wantsElements cs with
    | false => rfl
    | true => have := hi.2; rw [version_elements hw] at this; cases this
  refine ⟨?_, hne⟩
  obtain ⟨-, h⟩ := build_cases h
  have e1 : (expected s cs).frameControl.frameVersion = wantedVersion s cs := rfl
  have e2 : (expected s cs).frameControl.frameType = s.type := rfl
  rw [FrameBuilder.finalize, e1, e2, if_neg (by rw [hi.2]; simp), if_pos hi.1] at h
  split at h
  · cases h
  · simp only [ok.injEq] at h
    subst h
    simp [expected, sentFc, immediate, immediateFc, hne]

/-- The addressing fields an immediate acknowledgment announces. -/
theorem announced (s : Start) (cs : List Call) (ha : NoAbsent cs) (hi : IsImmAck s cs) :
    (addressLen cs = 0 → pans (immediateFc s cs).frameVersion (immediateFc s cs).dstMode
      (immediateFc s cs).srcMode (immediateFc s cs).panIdCompression = none) ∧
    (0 < addressLen cs → ∃ p, pans (immediateFc s cs).frameVersion (immediateFc s cs).dstMode
      (immediateFc s cs).srcMode (immediateFc s cs).panIdCompression = some p ∧
      fieldLen (immediateFc s cs) p = addressLen cs) := by
  have hd := last_dst_ne cs ha
  have hs := last_src_ne cs ha
  have hv := hi.2
  simp only [immediateFc, sentFc, addressLen, fieldLen, hv]
  generalize lastOf Call.dst? cs = d at *
  generalize lastOf Call.src? cs = s at *
  rcases d with _ | (_ | d | d) <;> rcases s with _ | (_ | s | s) <;>
    first
    | exact absurd rfl hd
    | exact absurd rfl hs
    | exact ⟨fun _ => rfl, fun h => (by cases h)⟩
    | exact ⟨fun h => (by cases h), fun _ => ⟨_, rfl, rfl⟩⟩

/-- **C95**, exactly, for every history the builder accepts: emitting panics for those of
`Unemittable`, and writes `emittedOctets` for all others. -/
theorem C95_exact (s : Start) (cs : List Call) (f : FrameRepr) (n : Nat) (h : build s cs = .ok f)
    (ha : NoAbsent cs)
    (he : wantsElements cs = true → ElementsOk ⟨wantedHeader cs, wantedElements cs⟩)
    (hn : f.bufferLen = .ok n) (hl : n ≤ 127) :
    (Unemittable s cs ∧ f.emit (List.replicate n 0) = .panic) ∨
    (¬ Unemittable s cs ∧ f.emit (List.replicate n 0) = .ok (emittedOctets s cs)) := by
  by_cases hi : IsImmAck s cs
  · obtain ⟨rfl, hne⟩ := built_immediate h hi
    obtain ⟨a1, a2⟩ := announced s cs ha hi
    have hw : Writable (immediate s cs).frameControl := by
      refine ⟨?_, modeOf_ne _, modeOf_ne _⟩
      show s.type ≠ _
      rw [hi.1]; simp
    by_cases hu : Unemittable s cs
    · refine .inl ⟨hu, ?_⟩
      rcases hu with ⟨hu, -⟩ | ⟨-, h0, p, hp, hlen⟩
      · rw [hne] at hu; cases hu
      · obtain ⟨q, q1, q2⟩ := a2 h0
        obtain ⟨m, m1, m2⟩ := C60_panics_iff (immediate s cs) rfl hne rfl hw
        rw [hn] at m1; cases m1
        rcases m2 with ⟨⟨-, e⟩, -⟩ | ⟨-, e⟩
        · exfalso
          have hp' : (immediate s cs).payload = some p := hp
          obtain ⟨-, e⟩ := e (by rw [hp']; rfl)
          have k1 : seqDeclared (immediate s cs) = (immediate s cs).sequenceNumber.toList.length := by
            have u : ∀ x : Option Byte, (if x.isNone then 0 else 1) = x.toList.length := by
              intro x; cases x <;> rfl
            exact u (wantedSeq s cs)
          have k2 : reservedLen (immediate s cs) = 0 := rfl
          rw [k1, k2, roomLen, k2, hp', declaredLen] at e
          change _ + (match pans (immediateFc s cs).frameVersion (immediateFc s cs).dstMode
              (immediateFc s cs).srcMode (immediateFc s cs).panIdCompression with
            | none => 0
            | some p => if fieldLen (immediateFc s cs) p ≤ _ then fieldLen (immediateFc s cs) p else 0) =
              _ at e
          rw [q1] at e
          simp only [Option.getD_some] at e
          rw [q2, if_pos (by omega)] at e
          omega
        · exact e
    · refine .inr ⟨hu, ?_⟩
      have hc : Coherent (immediate s cs) (tailOctets (immediate s cs)).length := by
        refine ⟨rfl, hne, ⟨modeOf_ne _, modeOf_ne _⟩, ?_, fun _ p hp => ?_, rfl⟩
        · intro _ e; cases e
        · by_cases h0 : addressLen cs = 0
          · have := (a1 h0).symm.trans hp
            cases this
          · obtain ⟨q, q1, q2⟩ := a2 (by omega)
            have e := q1.symm.trans hp
            simp only [Option.some.injEq] at e
            subst e
            refine lt_of_not_ge fun hge => hu (.inr ⟨hi, by omega, ?_⟩)
            have q3 : fieldLen (immediate s cs).frameControl q = addressLen cs := q2
            rw [q3] at hge
            simp only [tailOctets, immediate, List.nil_append] at hge
            cases hp : wantedPayload s cs with
            | none => rw [hp] at hge; simp at hge; omega
            | some p => rw [hp] at hge; exact ⟨p, rfl, hge⟩
      have ht : TailOk (immediate s cs) := by intro _ e; cases e
      obtain ⟨o0, o1, ho, h7, hd⟩ := emit_frame hc ht hw _ hn
      have ho' : decodeFc o0 o1 = immediateFc s cs := ho
      rw [hd, emittedOctets, if_pos hi, wire16_fc ho' h7]
      simp [tailOctets, addrOctets, immediate]
  · rw [emittedOctets, if_neg hi]
    by_cases hu : Unemittable s cs
    · refine .inl ⟨hu, ?_⟩
      rcases hu with ⟨hu, hp⟩ | ⟨hu, -⟩
      · obtain ⟨p, hp⟩ := Option.isSome_iff_exists.mp hp
        refine C29_elements_payload_panics s cs f n h ha hu (he hu) p hp ?_ hn
        obtain ⟨hc, hq⟩ := C28_consistent_partial s cs f h ha (fun c => absurd c hi)
        have := frame_bufferLen' (hc.coherent 0)
        rw [hn, hq.payload, hp] at this
        simp only [ok.injEq] at this
        omega
      · exact absurd hu hi
    · refine .inr ⟨hu, ?_⟩
      obtain ⟨m, m1, m2⟩ := C95_layout_partial s cs f ⟨h, ha, fun c => absurd c hi, fun hw => ⟨he hw, by
        cases hp : wantedPayload s cs with
        | none => rfl
        | some p => exact absurd (.inl ⟨hw, by rw [hp]; rfl⟩) hu⟩⟩
      rw [hn] at m1; cases m1
      exact m2

/-- An immediate acknowledgment with an address: three octets, which announce an address. -/
example : ∃ f, build (.immAck 5) [.dstAddress (.short ⟨[1, 2], rfl⟩)] = .ok f ∧ f.bufferLen = .ok 3 ∧
    emittedOctets (.immAck 5) [.dstAddress (.short ⟨[1, 2], rfl⟩)] = [0x02, 0x18, 5] ∧
    f.emit (List.replicate 3 0) = .ok [0x02, 0x18, 5] :=
  ⟨_, rfl, rfl, by decide +kernel, by decide +kernel⟩

end Dot15d4.Props
