import Verif.Props.StdBeacon
import Verif.Props.SecuredAck
import Verif.Props.Tsch
import Verif.Props.CsmaFrames

/-!
# C91: reserved bits are ignored on reception

Reserved bits may be given a meaning by later versions of the standard; a receiver has to ignore them.
-/

namespace Dot15d4.Props
open Out Spec Csma

/-! ## Frame control -/

theorem decodeFc_reserved {o0 o0' : Byte} (h : o0.toNat % 128 = o0'.toNat % 128) (o1 : Byte) :
    decodeFc o0 o1 = decodeFc o0' o1 := by
  have h0 := o0.isLt
  have h0' := o0'.isLt
  have h1 := o1.isLt
  have e1 : fcField o0 o1 0 3 = fcField o0' o1 0 3 := by simp only [fcField]; omega
  have hi : ∀ x : Byte, (x.toNat + 256 * o1.toNat) / 2 ^ 10 = o1.toNat / 4 ∧
      (x.toNat + 256 * o1.toNat) / 2 ^ 12 = o1.toNat / 16 ∧
      (x.toNat + 256 * o1.toNat) / 2 ^ 14 = o1.toNat / 64 := by
    intro x
    have := x.isLt
    omega
  have e2 : fcField o0 o1 10 2 = fcField o0' o1 10 2 := by
    simp only [fcField, (hi o0).1, (hi o0').1]
  have e3 : fcField o0 o1 12 2 = fcField o0' o1 12 2 := by
    simp only [fcField, (hi o0).2.1, (hi o0').2.1]
  have e4 : fcField o0 o1 14 2 = fcField o0' o1 14 2 := by
    simp only [fcField, (hi o0).2.2, (hi o0').2.2]
  have b3 : fcBit o0 o1 3 = fcBit o0' o1 3 := by
    simp only [fcBit, show o0.toNat / 2 ^ 3 % 2 = o0'.toNat / 2 ^ 3 % 2 by omega]
  have b4 : fcBit o0 o1 4 = fcBit o0' o1 4 := by
    simp only [fcBit, show o0.toNat / 2 ^ 4 % 2 = o0'.toNat / 2 ^ 4 % 2 by omega]
  have b5 : fcBit o0 o1 5 = fcBit o0' o1 5 := by
    simp only [fcBit, show o0.toNat / 2 ^ 5 % 2 = o0'.toNat / 2 ^ 5 % 2 by omega]
  have b6 : fcBit o0 o1 6 = fcBit o0' o1 6 := by
    simp only [fcBit, show o0.toNat / 2 ^ 6 % 2 = o0'.toNat / 2 ^ 6 % 2 by omega]
  have b8 : fcBit o0 o1 8 = fcBit o0' o1 8 := rfl
  have b9 : fcBit o0 o1 9 = fcBit o0' o1 9 := rfl
  simp only [decodeFc, e1, e2, e3, e4, b3, b4, b5, b6, b8, b9]

theorem flags_reserved {o0 o0' : Byte} (h : o0.toNat % 128 = o0'.toNat % 128) (o1 : Byte) (b : Bytes) :
    AddressingFields.flags ⟨b, [o0, o1]⟩ = AddressingFields.flags ⟨b, [o0', o1]⟩ := by
  simp only [AddressingFields.flags, fc_version, fc_dst, fc_src, fc_comp, decodeFc_reserved h o1]

/-- The readers of the addressing fields agree. -/
theorem addressing_reserved {o0 o0' : Byte} (h : o0.toNat % 128 = o0'.toNat % 128) (o1 : Byte)
    (b : Bytes) :
    let a : AddressingFields := ⟨b, [o0, o1]⟩
    let a' : AddressingFields := ⟨b, [o0', o1]⟩
    a.checkLen = a'.checkLen ∧ a.dstPanId = a'.dstPanId ∧ a.srcPanId = a'.srcPanId ∧
    a.dstAddress = a'.dstAddress ∧ a.srcAddress = a'.srcAddress ∧ a.len = a'.len ∧
    AddressingFieldsRepr.parse a = AddressingFieldsRepr.parse a' := by
  intro a a'
  have hf := flags_reserved h o1 b
  have h1 : a.checkLen = a'.checkLen := by simp only [AddressingFields.checkLen, a, a', hf]
  have h2 : a.dstPanId = a'.dstPanId := by simp only [AddressingFields.dstPanId, a, a', hf]
  have h3 : a.srcPanId = a'.srcPanId := by simp only [AddressingFields.srcPanId, a, a', hf]
  have h4 : a.dstAddress = a'.dstAddress := by simp only [AddressingFields.dstAddress, a, a', hf]
  have h5 : a.srcAddress = a'.srcAddress := by simp only [AddressingFields.srcAddress, a, a', hf]
  have hd : ∀ x : Byte, FrameControl.dstMode [x, o1] = .ok (decodeFc x o1).dstMode := fun x => fc_dst x o1 []
  have hs : ∀ x : Byte, FrameControl.srcMode [x, o1] = .ok (decodeFc x o1).srcMode := fun x => fc_src x o1 []
  have h6 : a.len = a'.len := by
    simp only [AddressingFields.len, h2, h3]
    simp only [a, a', hd, hs, decodeFc_reserved h o1]
  refine ⟨h1, h2, h3, h4, h5, h6, ?_⟩
  simp only [AddressingFieldsRepr.parse, h2, h3, h4, h5]

/-- The same reader with another frame control field. -/
def withFc (fc : Bytes) (a : AddressingFields) : AddressingFields := ⟨a.buffer, fc⟩

theorem slice_tail {x x' y : Byte} {t : Bytes} {n : Nat} (h : 1 ≤ n) :
    sliceFrom (x :: y :: t) n = sliceFrom (x' :: y :: t) n := by
  obtain ⟨m, rfl⟩ : ∃ m, n = m + 1 := ⟨n - 1, by omega⟩
  simp [sliceFrom]

/-- What `DataFrame::addressing` returns. -/
theorem df_addressing_reserved {o0 o0' : Byte} (h : o0.toNat % 128 = o0'.toNat % 128) (o1 : Byte)
    (t : Bytes) : (∃ o : Option Bytes, DataFrame.addressing (o0 :: o1 :: t) = .ok (o.map fun b => ⟨b, [o0, o1]⟩) ∧
      DataFrame.addressing (o0' :: o1 :: t) = .ok (o.map fun b => ⟨b, [o0', o1]⟩)) ∨
    (DataFrame.addressing (o0 :: o1 :: t) = .panic ∧
      DataFrame.addressing (o0' :: o1 :: t) = .panic) := by
  simp only [DataFrame.addressing, df_frameControl, bind_ok, fc_sup, decodeFc_reserved h o1,
    slice_tail (x := o0) (x' := o0') (n := 2) (by omega),
    slice_tail (x := o0) (x' := o0') (n := 3) (by omega)]
  have key : ∀ s : Bytes, ∃ o : Option Bytes,
      (AddressingFields.new s [o0, o1]).toOption = .ok (o.map fun b => ⟨b, [o0, o1]⟩) ∧
      (AddressingFields.new s [o0', o1]).toOption = .ok (o.map fun b => ⟨b, [o0', o1]⟩) := by
    intro s
    have h1 := (addressing_reserved h o1 s).1
    simp only [AddressingFields.new, h1]
    have hr : ∃ v, AddressingFields.checkLen ⟨s, [o0', o1]⟩ = .ok v := by
      simp only [AddressingFields.checkLen, AddressingFields.flags, fc_version, fc_dst, fc_src, fc_comp,
        bind_ok]
      split <;> exact ⟨_, rfl⟩
    obtain ⟨v, hv⟩ := hr
    rw [hv]
    cases v
    · exact ⟨none, rfl, rfl⟩
    · exact ⟨some s, rfl, rfl⟩
  cases (decodeFc o0' o1).seqNoSuppression
  · simp only [Bool.false_eq_true, if_false]
    cases hq : sliceFrom (o0' :: o1 :: t) 3 with
    | ok s => exact .inl (key s)
    | err => simp [sliceFrom] at hq; split at hq <;> cases hq
    | panic => exact .inr ⟨rfl, rfl⟩
  · simp only [if_true]
    cases hq : sliceFrom (o0' :: o1 :: t) 2 with
    | ok s => exact .inl (key s)
    | err => simp [sliceFrom] at hq
    | panic => exact .inr ⟨rfl, rfl⟩

theorem addrEnd_reserved {o0 o0' : Byte} (h : o0.toNat % 128 = o0'.toNat % 128) (o1 : Byte)
    (t : Bytes) : DataFrame.addrEnd (o0 :: o1 :: t) = DataFrame.addrEnd (o0' :: o1 :: t) := by
  simp only [DataFrame.addrEnd, df_frameControl, bind_ok, fc_sup, decodeFc_reserved h o1]
  rcases df_addressing_reserved h o1 t with ⟨o, e, e'⟩ | ⟨e, e'⟩
  · rw [e, e']
    cases o with
    | none => rfl
    | some b =>
      have := (addressing_reserved h o1 b).2.2.2.2.2.1
      simp only [Option.map_some, bind_ok, this]
  · rw [e, e']

theorem addrEnd_ge {b : Bytes} {n : Nat} (h : DataFrame.addrEnd b = .ok n) : 2 ≤ n := by
  simp only [DataFrame.addrEnd, bind_eq_ok] at h
  obtain ⟨_, _, _, _, o, _, h⟩ := h
  cases o with
  | none => simp only [ok.injEq] at h; omega
  | some af =>
    simp only [bind_eq_ok, ok.injEq] at h
    obtain ⟨_, _, h⟩ := h
    omega

theorem elements_reserved {o0 o0' : Byte} (h : o0.toNat % 128 = o0'.toNat % 128) (o1 : Byte)
    (t : Bytes) : DataFrame.informationElements (o0 :: o1 :: t) =
      DataFrame.informationElements (o0' :: o1 :: t) := by
  simp only [DataFrame.informationElements, df_frameControl, bind_ok, fc_ie, decodeFc_reserved h o1,
    addrEnd_reserved h o1 t]
  cases hn : DataFrame.addrEnd (o0' :: o1 :: t) with
  | ok n => simp only [bind_ok, slice_tail (x := o0) (x' := o0') (n := n) (by have := addrEnd_ge hn; omega)]
  | err => rfl
  | panic => rfl

theorem payload_reserved {o0 o0' : Byte} (h : o0.toNat % 128 = o0'.toNat % 128) (o1 : Byte)
    (t : Bytes) : DataFrame.payload (o0 :: o1 :: t) = DataFrame.payload (o0' :: o1 :: t) := by
  have hx : DataFrame.auxSecHeader (o0 :: o1 :: t) = DataFrame.auxSecHeader (o0' :: o1 :: t) := by
    simp only [DataFrame.auxSecHeader, df_frameControl, bind_ok, fc_security, decodeFc_reserved h o1,
      addrEnd_reserved h o1 t]
    cases hn : DataFrame.addrEnd (o0' :: o1 :: t) with
    | ok n =>
      simp only [bind_ok, slice_tail (x := o0) (x' := o0') (n := n) (by have := addrEnd_ge hn; omega)]
    | err => rfl
    | panic => rfl
  have ho : DataFrame.payloadOffset (o0 :: o1 :: t) = DataFrame.payloadOffset (o0' :: o1 :: t) := by
    simp only [DataFrame.payloadOffset, df_frameControl, bind_ok, fc_security, fc_ie,
      decodeFc_reserved h o1, addrEnd_reserved h o1 t, elements_reserved h o1 t, hx]
  have hge : ∀ n, DataFrame.payloadOffset (o0' :: o1 :: t) = .ok n → 2 ≤ n := by
    intro n hn
    simp only [DataFrame.payloadOffset, df_frameControl, bind_ok, fc_security, fc_ie, bind_eq_ok] at hn
    obtain ⟨k, hk, m, hm, hn⟩ := hn
    have := addrEnd_ge hk
    have h1 : 2 ≤ m := by
      split at hm
      · simp only [bind_eq_ok, ok.injEq] at hm
        obtain ⟨_, _, _, _, _, _, hm⟩ := hm
        omega
      · simp only [ok.injEq] at hm; omega
    split at hn
    · simp only [bind_eq_ok] at hn
      obtain ⟨o, _, hn⟩ := hn
      cases o with
      | none => simp only [ok.injEq] at hn; omega
      | some _ =>
        simp only [bind_eq_ok, ok.injEq] at hn
        obtain ⟨_, _, hn⟩ := hn
        omega
    · simp only [ok.injEq] at hn; omega
  simp only [DataFrame.payload, ho]
  cases hn : DataFrame.payloadOffset (o0' :: o1 :: t) with
  | ok n =>
    simp only [bind_ok, List.length_cons,
      slice_tail (x := o0) (x' := o0') (n := n) (by have := hge n hn; omega)]
  | err => rfl
  | panic => rfl

/-- **C91**, the frame control field.  Bit 7 is reserved: frames that differ in it alone are accepted
alike, and everything that is read from them is the same. -/
theorem C91_frame (o0 o0' o1 : Byte) (t : Bytes) (h : o0.toNat % 128 = o0'.toNat % 128) :
    ((∃ f, DataFrame.new (o0 :: o1 :: t) = .ok f) ↔ ∃ f, DataFrame.new (o0' :: o1 :: t) = .ok f) ∧
    FrameRepr.parse (o0 :: o1 :: t) = FrameRepr.parse (o0' :: o1 :: t) ∧
    DataFrame.sequenceNumber (o0 :: o1 :: t) = DataFrame.sequenceNumber (o0' :: o1 :: t) ∧
    DataFrame.payload (o0 :: o1 :: t) = DataFrame.payload (o0' :: o1 :: t) := by
  have hs : DataFrame.sequenceNumber (o0 :: o1 :: t) = DataFrame.sequenceNumber (o0' :: o1 :: t) := by
    simp only [DataFrame.sequenceNumber, df_frameControl, bind_ok, fc_sup, decodeFc_reserved h o1, idx,
      List.getElem?_cons_succ]
  refine ⟨?_, ?_, hs, payload_reserved h o1 t⟩
  · have hacc : ∀ x y : Byte, x.toNat % 128 = y.toNat % 128 →
        Acceptable (x :: o1 :: t) → Acceptable (y :: o1 :: t) := by
      rintro x y hxy ⟨h1, h2, a, b, l, e, h3⟩
      simp only [List.cons.injEq] at e
      obtain ⟨rfl, rfl, rfl⟩ := e
      rw [decodeFc_reserved hxy o1] at h3
      exact ⟨h1, h2, y, o1, t, rfl, h3⟩
    have hiff : ∀ b, (∃ f, DataFrame.new b = .ok f) ↔ Acceptable b := by
      intro b
      rcases C09_new b with ⟨h1, h2⟩ | ⟨h1, h2⟩
      · exact ⟨fun _ => h1, fun _ => ⟨_, h2⟩⟩
      · exact ⟨fun ⟨f, hf⟩ => (by rw [h2] at hf; cases hf), fun h => absurd h h1⟩
    rw [hiff, hiff]
    exact ⟨hacc _ _ h, hacc _ _ h.symm⟩
  · simp only [FrameRepr.parse, df_frameControl, bind_ok, elements_reserved h o1 t, hs,
      payload_reserved h o1 t]
    have hp : FrameControlRepr.parse [o0, o1] = FrameControlRepr.parse [o0', o1] := by
      have hpend : ∀ x : Byte, FrameControl.framePending [x, o1] = .ok (decodeFc x o1).framePending :=
        fun x => (C01_getters_decode x o1 []).2.2.1
      simp only [FrameControlRepr.parse, fc_frameType, fc_security, hpend, fc_ack, fc_comp, fc_sup, fc_ie,
        fc_dst, fc_src, fc_version, decodeFc_reserved h o1]
    rw [hp]
    rcases df_addressing_reserved h o1 t with ⟨o, e, e'⟩ | ⟨e, e'⟩
    · rw [e, e']
      cases o with
      | none => rfl
      | some b =>
        have := (addressing_reserved h o1 b).2.2.2.2.2.2
        simp only [Option.map_some, bind_ok, mapOpt, this]
    · rw [e, e']

/-- A broadcast data frame with the reserved bit set. -/
example : FrameRepr.parse [0xc1, 0x98, 7, 0xcd, 0xab, 0xff, 0xff, 1, 2, 9] =
    FrameRepr.parse [0x41, 0x98, 7, 0xcd, 0xab, 0xff, 0xff, 1, 2, 9] :=
  (C91_frame 0xc1 0x41 0x98 [7, 0xcd, 0xab, 0xff, 0xff, 1, 2, 9] (by decide)).2.1

/-- **C91**, the receiver: whether a frame is for the device, and whether it asks for an
acknowledgment, does not depend on the reserved bit. -/
theorem C91_receiver (c : Consts) (hw : Arr 8) (o0 o0' o1 : Byte) (t : Bytes)
    (h : o0.toNat % 128 = o0'.toNat % 128) :
    isPackageForUs c hw (o0 :: o1 :: t) = isPackageForUs c hw (o0' :: o1 :: t) ∧
    (DataFrame.frameControl (o0 :: o1 :: t) >>= FrameControl.ackRequest) =
      (DataFrame.frameControl (o0' :: o1 :: t) >>= FrameControl.ackRequest) := by
  constructor
  · have hd : dstAddressOf (o0 :: o1 :: t) = dstAddressOf (o0' :: o1 :: t) := by
      simp only [dstAddressOf]
      rcases df_addressing_reserved h o1 t with ⟨o, e, e'⟩ | ⟨e, e'⟩
      · rw [e, e']
        cases o with
        | none => rfl
        | some b => exact (addressing_reserved h o1 b).2.2.2.1
      · rw [e, e']
    simp only [isPackageForUs, df_frameControl, bind_ok, fc_frameType, fc_version, decodeFc_reserved h o1, hd]
    rcases df_addressing_reserved h o1 t with ⟨o, e, e'⟩ | ⟨e, e'⟩
    · rw [e, e']
      cases o with
      | none => rfl
      | some b =>
        have := (addressing_reserved h o1 b).2.1
        simp only [Option.map_some, bind_ok, this]
    · rw [e, e']
  · simp only [df_frameControl, bind_ok, fc_ack, decodeFc_reserved h o1]

example : isPackageForUs exampleDevice.consts exampleDevice.hardwareAddress
      [0xc1, 0x98, 7, 0xcd, 0xab, 0xff, 0xff, 1, 2, 9] =
    isPackageForUs exampleDevice.consts exampleDevice.hardwareAddress
      [0x41, 0x98, 7, 0xcd, 0xab, 0xff, 0xff, 1, 2, 9] :=
  (C91_receiver _ _ 0xc1 0x41 0x98 [7, 0xcd, 0xab, 0xff, 0xff, 1, 2, 9] (by decide)).1

/-! ## Security control -/

/-- **C91**, the security control octet: bit 7 is reserved. -/
theorem C91_security (c c' : Byte) (l : Bytes) (h : c.toNat % 128 = c'.toNat % 128) :
    SecurityControl.securityLevel c = SecurityControl.securityLevel c' ∧
    SecurityControl.keyIdentifierMode c = SecurityControl.keyIdentifierMode c' ∧
    SecurityControl.frameCounterSuppression c = SecurityControl.frameCounterSuppression c' ∧
    SecurityControl.asnInNonce c = SecurityControl.asnInNonce c' ∧
    AuxSecHeader.len (c :: l) = AuxSecHeader.len (c' :: l) := by
  have hm : ∀ x : Byte, SecurityControl.securityLevel x = BitVec.ofNat 8 (x.toNat % 8) := by decide
  have hl : SecurityControl.securityLevel c = SecurityControl.securityLevel c' := by
    rw [hm, hm]; congr 1; omega
  obtain ⟨-, k1, k2, k3⟩ := C34_levels_partial c []
  obtain ⟨-, k1', k2', k3'⟩ := C34_levels_partial c' []
  refine ⟨hl, ?_, ?_, ?_, ?_⟩
  · rw [k1, k1', show c.toNat / 8 % 4 = c'.toNat / 8 % 4 by omega]
  · rw [k2, k2', Nat.testBit_eq_decide_div_mod_eq, Nat.testBit_eq_decide_div_mod_eq,
      show c.toNat / 2 ^ 5 % 2 = c'.toNat / 2 ^ 5 % 2 by omega]
  · rw [k3, k3', Nat.testBit_eq_decide_div_mod_eq, Nat.testBit_eq_decide_div_mod_eq,
      show c.toNat / 2 ^ 6 % 2 = c'.toNat / 2 ^ 6 % 2 by omega]
  · rw [auxLen_eq, auxLen_eq, micOctets, micOctets, show c.toNat % 4 = c'.toNat % 4 by omega]

example : AuxSecHeader.len [0x85, 1] = AuxSecHeader.len [0x05, 1] :=
  (C91_security 0x85 0x05 [1] (by decide)).2.2.2.2

/-! ## Beacons -/

/-- The fields of a superframe specification. -/
theorem superframe_fields (s0 s1 : Byte) :
    Macro.get Macro.superframeSpecification "beacon_order" [s0, s1] = .ok (some (.num (s0.toNat % 16))) ∧
    Macro.get Macro.superframeSpecification "superframe_order" [s0, s1] =
      .ok (some (.num (s0.toNat / 16))) ∧
    Macro.get Macro.superframeSpecification "final_cap_slot" [s0, s1] =
      .ok (some (.num (s1.toNat % 16))) ∧
    Macro.get Macro.superframeSpecification "battery_life_extension" [s0, s1] =
      .ok (some (.num (s1.toNat / 16 % 2))) ∧
    Macro.get Macro.superframeSpecification "pan_coordinator" [s0, s1] =
      .ok (some (.num (s1.toNat / 64 % 2))) ∧
    Macro.get Macro.superframeSpecification "association_permit" [s0, s1] =
      .ok (some (.num (s1.toNat / 128))) := by
  obtain ⟨-, h⟩ := C24_codebase_partial.1
  have hsz : Macro.size Macro.superframeSpecification ≤ [s0, s1].length := by
    simp [Macro.size, Macro.superframeSpecification, Macro.advance]
  have hn : ∀ i, i < 7 → i ≠ 4 → ∀ f, Macro.superframeSpecification[i]? = some f →
      ∀ j g, j < i → Macro.superframeSpecification[j]? = some g → g.name ≠ f.name := by
    have hd : ∀ i < 7, i ≠ 4 → ∀ j < i, (Macro.superframeSpecification[j]?).map (·.name) ≠
        (Macro.superframeSpecification[i]?).map (·.name) := by decide
    intro i hi h4 f hf j g hj hg e
    refine hd i hi h4 j hj ?_
    rw [hf, hg, Option.map_some, Option.map_some, e]
  have g0 := h [s0, s1] hsz 0 _ rfl (hn 0 (by omega) (by omega) _ rfl)
  have g1 := h [s0, s1] hsz 1 _ rfl (hn 1 (by omega) (by omega) _ rfl)
  have g2 := h [s0, s1] hsz 2 _ rfl (hn 2 (by omega) (by omega) _ rfl)
  have g3 := h [s0, s1] hsz 3 _ rfl (hn 3 (by omega) (by omega) _ rfl)
  have g5 := h [s0, s1] hsz 5 _ rfl (hn 5 (by omega) (by omega) _ rfl)
  have g6 := h [s0, s1] hsz 6 _ rfl (hn 6 (by omega) (by omega) _ rfl)
  clear h hn hsz
  simp [present, Macro.superframeSpecification, fieldValue, startOf, width, leNat] at g0 g1 g2 g3 g5 g6
  have l0 := s0.isLt
  have l1 := s1.isLt
  refine ⟨?_, ?_, ?_, ?_, ?_, ?_⟩
  · rw [Macro.superframeSpecification, g0]; congr 3; omega
  · rw [Macro.superframeSpecification, g1]; congr 3; omega
  · rw [Macro.superframeSpecification, g2]; congr 3; omega
  · rw [Macro.superframeSpecification, g3]; congr 3; omega
  · rw [Macro.superframeSpecification, g5]; congr 3; omega
  · rw [Macro.superframeSpecification, g6]; congr 3; omega

/-- **C91**, the superframe specification: bit 13 is reserved. -/
theorem C91_superframe (s0 s1 s1' : Byte) (h1 : s1.toNat % 32 = s1'.toNat % 32)
    (h2 : s1.toNat / 64 = s1'.toNat / 64) :
    ∀ name ∈ ["beacon_order", "superframe_order", "final_cap_slot", "battery_life_extension",
      "pan_coordinator", "association_permit"],
      Macro.get Macro.superframeSpecification name [s0, s1] =
        Macro.get Macro.superframeSpecification name [s0, s1'] := by
  obtain ⟨a0, a1, a2, a3, a5, a6⟩ := superframe_fields s0 s1
  obtain ⟨b0, b1, b2, b3, b5, b6⟩ := superframe_fields s0 s1'
  have e2 : s1.toNat % 16 = s1'.toNat % 16 := by omega
  have e3 : s1.toNat / 16 % 2 = s1'.toNat / 16 % 2 := by omega
  have e5 : s1.toNat / 64 % 2 = s1'.toNat / 64 % 2 := by omega
  have e6 : s1.toNat / 128 = s1'.toNat / 128 := by omega
  intro name hname
  simp only [List.mem_cons, List.not_mem_nil, or_false] at hname
  rcases hname with rfl | rfl | rfl | rfl | rfl | rfl
  · rw [a0, b0]
  · rw [a1, b1]
  · rw [a2, b2, e2]
  · rw [a3, b3, e3]
  · rw [a5, b5, e5]
  · rw [a6, b6, e6]

example : Macro.get Macro.superframeSpecification "pan_coordinator" [0xff, 0x6f] =
    Macro.get Macro.superframeSpecification "pan_coordinator" [0xff, 0x4f] :=
  C91_superframe 0xff 0x6f 0x4f (by decide) (by decide) _ (by simp)

/-- **C91**, the GTS specification: bits 3 to 6 are reserved. -/
theorem C91_gts (g g' : Byte) (l : Bytes) (h : g.toNat % 8 = g'.toNat % 8) :
    GtsInfo.length (g :: l) = GtsInfo.length (g' :: l) ∧
    GtsSpecification.slots (g :: l) = GtsSpecification.slots (g' :: l) := by
  refine ⟨by rw [gtsLength_cons, gtsLength_cons, h], ?_⟩
  simp only [GtsSpecification.slots, descriptorCount_cons, bind_ok, h]
  rw [show sliceFrom (g :: l) 1 = sliceFrom (g' :: l) 1 by simp [sliceFrom]]

example : GtsInfo.length [0x7a, 1, 2] = GtsInfo.length [0x02, 1, 2] := (C91_gts _ _ [1, 2] (by decide)).1

/-- **C91**, the GTS directions: bit 7 is reserved (there are at most seven descriptors). -/
theorem C91_directions (d d' : Byte) (ds : List (Arr 3)) (h : d.toNat % 128 = d'.toNat % 128)
    (hl : ds.length ≤ 7) : slotsOf d 0 ds = slotsOf d' 0 ds := by
  have hb : ∀ k < 7, d.getLsbD k = d'.getLsbD k := by
    intro k hk
    have h1 := congrArg (fun n => n.testBit k) h
    simp only [show (128 : Nat) = 2 ^ 7 from rfl, Nat.testBit_mod_two_pow, hk, decide_true,
      Bool.true_and] at h1
    exact h1
  have : ∀ (ds : List (Arr 3)) k, k + ds.length ≤ 7 → slotsOf d k ds = slotsOf d' k ds := by
    intro ds
    induction ds with
    | nil => intro k _; rfl
    | cons a ds ih =>
      intro k hk
      rw [List.length_cons] at hk
      simp only [slotsOf, hb k (by omega), ih (k + 1) (by omega)]
  exact this ds 0 (by omega)

example : slotsOf 0x81 0 [⟨[1, 2, 0x35], rfl⟩] = slotsOf 0x01 0 [⟨[1, 2, 0x35], rfl⟩] :=
  C91_directions 0x81 0x01 _ (by decide) (by decide)

/-- **C91**, the pending address specification: bits 3 and 7 are reserved. -/
theorem C91_pending (q q' : Byte) (l : Bytes) (h1 : q.toNat % 8 = q'.toNat % 8)
    (h2 : q.toNat / 16 % 8 = q'.toNat / 16 % 8) :
    PendingAddress.length (q :: l) = PendingAddress.length (q' :: l) ∧
    PendingAddress.pendingAddresses (q :: l) = PendingAddress.pendingAddresses (q' :: l) := by
  have hs : sliceFrom (q :: l) 1 = sliceFrom (q' :: l) 1 := by simp [sliceFrom]
  refine ⟨by rw [pendingLength_cons, pendingLength_cons, h1, h2], ?_⟩
  simp only [PendingAddress.pendingAddresses, pendingSpec_cons, bind_ok, pendingLength_cons,
    counts_single, h1, h2, hs]

example : PendingAddress.length [0x99, 1] = PendingAddress.length [0x11, 1] :=
  (C91_pending 0x99 0x11 [1] (by decide) (by decide)).1

/-- **C91**, whole beacons: those that differ in the reserved bits alone have the same payload and the
same pending addresses. -/
theorem C91_beacon (o0 o0' o1 seq s0 s1 s1' g g' q q' : Byte) (A G Z : Bytes)
    (hd : (decodeFc o0 o1).dstMode ≠ .unknown) (hs : (decodeFc o0 o1).srcMode ≠ .unknown)
    (ha : ∃ p, fcPans o0 o1 = some p ∧ A.length = fcAddrLen o0 o1 p)
    (hp : (decodeFc o0 o1).securityEnabled = false) (h0 : o0.toNat % 128 = o0'.toNat % 128)
    (hg : g.toNat % 8 = g'.toNat % 8) (hG : G.length = 3 * (g.toNat % 8))
    (h1 : q.toNat % 8 = q'.toNat % 8) (h2 : q.toNat / 16 % 8 = q'.toNat / 16 % 8) :
    let b := [o0, o1, seq] ++ A ++ [s0, s1] ++ (g :: G) ++ (q :: Z)
    let b' := [o0', o1, seq] ++ A ++ [s0, s1'] ++ (g' :: G) ++ (q' :: Z)
    Beacon.payload b = Beacon.payload b' ∧
    (Beacon.pendingAddress b >>= PendingAddress.pendingAddresses) =
      (Beacon.pendingAddress b' >>= PendingAddress.pendingAddresses) := by
  intro b b'
  have hdec := decodeFc_reserved h0 o1
  have hb : b = o0 :: o1 :: seq :: (A ++ (s0 :: s1 :: g :: (G ++ (q :: Z)))) := by simp [b]
  have hb' : b' = o0' :: o1 :: seq :: (A ++ (s0 :: s1' :: g' :: (G ++ (q' :: Z)))) := by simp [b']
  obtain ⟨-, -, r3, r4⟩ := beacon_reads (seq := seq) (s0 := s0) (s1 := s1) (g := g)
    (Z := G ++ (q :: Z)) hd hs ha hp
  have ha' : ∃ p, fcPans o0' o1 = some p ∧ A.length = fcAddrLen o0' o1 p := by
    simpa only [fcPans, fcAddrLen, hdec] using ha
  rw [hdec] at hd hs hp
  obtain ⟨-, -, r3', r4'⟩ := beacon_reads (seq := seq) (s0 := s0) (s1 := s1') (g := g')
    (Z := G ++ (q' :: Z)) hd hs ha' hp
  rw [← hb] at r3 r4
  rw [← hb'] at r3' r4'
  have e : ∀ y : Byte, sliceFrom (G ++ (y :: Z)) (3 * (g.toNat % 8)) = .ok (y :: Z) := by
    intro y
    rw [sliceFrom_ok (by simp; omega), List.drop_left' hG]
  rw [e] at r3 r4
  rw [← hg, e] at r3' r4'
  obtain ⟨k1, k2⟩ := C91_pending q q' Z h1 h2
  refine ⟨?_, ?_⟩
  · rw [r4, r4', bind_ok, bind_ok, k1, pendingLength_cons, bind_ok, bind_ok]
    congr 1
    obtain ⟨m, hm⟩ : ∃ m, 1 + q'.toNat % 8 * 2 + q'.toNat / 16 % 8 * 8 = m + 1 :=
      ⟨q'.toNat % 8 * 2 + q'.toNat / 16 % 8 * 8, by omega⟩
    rw [hm]
    simp [sliceFrom]
  · rw [r3, r3', bind_ok, bind_ok, k2]

example : Beacon.payload [0x80, 0x80, 7, 0xcd, 0xab, 0x34, 0x12, 0xff, 0xef, 0xf8, 0x89, 1, 2, 0xaa] =
    Beacon.payload [0x00, 0x80, 7, 0xcd, 0xab, 0x34, 0x12, 0xff, 0xcf, 0x80, 0x01, 1, 2, 0xaa] :=
  (C91_beacon 0x80 0x00 0x80 7 0xff 0xef 0xcf 0xf8 0x80 0x89 0x01 [0xcd, 0xab, 0x34, 0x12] []
    [1, 2, 0xaa] (by decide) (by decide) ⟨⟨false, true⟩, by decide, by decide⟩ (by decide) (by decide)
    (by decide) (by decide) (by decide) (by decide)).1

/-! ## Information elements -/

/-- **C91**, the time correction element: bits 12 to 14 are reserved. -/
theorem C91_time_correction (b0 b1 b1' : Byte) (l : Bytes) (h1 : b1.toNat % 16 = b1'.toNat % 16)
    (h2 : b1.toNat / 128 = b1'.toNat / 128) :
    TimeCorrection.timeCorrection (b0 :: b1 :: l) = TimeCorrection.timeCorrection (b0 :: b1' :: l) ∧
    TimeCorrection.nack (b0 :: b1 :: l) = TimeCorrection.nack (b0 :: b1' :: l) := by
  have l0 := b0.isLt
  have l1 := b1.isLt
  have l1' := b1'.isLt
  have em : u16le b0 b1 &&& 0x0fff#16 = u16le b0 b1' &&& 0x0fff#16 := by
    apply BitVec.eq_of_toNat_eq
    rw [BitVec.toNat_and, BitVec.toNat_and, u16le_toNat, u16le_toNat,
      show (0x0fff#16).toNat = 2 ^ 12 - 1 from rfl, Nat.and_two_pow_sub_one_eq_mod,
      Nat.and_two_pow_sub_one_eq_mod]
    omega
  have en : ∀ x : Byte, ((u16le b0 x &&& 0x8000#16) != 0#16) = decide (x.toNat / 128 = 1) := by
    intro x
    have lx := x.isLt
    have hb : (u16le b0 x).getLsbD 15 = decide (x.toNat / 128 = 1) := by
      rw [BitVec.getLsbD, u16le_toNat, Nat.testBit_eq_decide_div_mod_eq]
      congr 1
      simp only [eq_iff_iff]
      omega
    rw [← hb]
    generalize u16le b0 x = w
    by_cases hw : w.getLsbD 15 = true
    · rw [hw]
      simp only [bne_iff_ne, ne_eq]
      intro e
      have := congrArg (fun v => v.getLsbD 15) e
      rw [BitVec.getLsbD_and, hw] at this
      exact absurd this (by decide)
    · have hw' : w.getLsbD 15 = false := by simpa using hw
      rw [hw']
      have : w &&& 0x8000#16 = 0#16 := by
        apply BitVec.eq_of_getLsbD_eq
        intro i hi
        rw [BitVec.getLsbD_and]
        by_cases hi15 : i = 15
        · subst hi15; rw [hw']; rfl
        · have : (0x8000#16).getLsbD i = false := by
            interval_cases i <;> first | rfl | exact absurd rfl hi15
          rw [this]; simp
      rw [this]; rfl
  refine ⟨?_, ?_⟩
  · simp only [TimeCorrection.timeCorrection, readU16_cons, bind_ok, TimeCorrection.wTime, em]
  · simp only [TimeCorrection.nack, readU16_cons, bind_ok, en, h2]

/-- **C91**, the options of a TSCH link: bits 5 to 7 are reserved. -/
theorem C91_link_options (t0 t1 c0 c1 o o' : Byte) (l : Bytes) (h : o.toNat % 32 = o'.toNat % 32) :
    LinkInformation.linkOptions (t0 :: t1 :: c0 :: c1 :: o :: l) =
      LinkInformation.linkOptions (t0 :: t1 :: c0 :: c1 :: o' :: l) := by
  have hm : ∀ x : Byte, x &&& 0x1f#8 = BitVec.ofNat 8 (x.toNat % 32) := by decide
  simp only [LinkInformation.linkOptions, idx, List.getElem?_cons_succ, List.getElem?_cons_zero, bind_ok,
    hm, h]

example : TimeCorrection.timeCorrection [0x05, 0xf0] = TimeCorrection.timeCorrection [0x05, 0x80] :=
  (C91_time_correction 0x05 0xf0 0x80 [] (by decide) (by decide)).1

example : LinkInformation.linkOptions [0, 0, 0, 0, 0xef] = LinkInformation.linkOptions [0, 0, 0, 0, 0x0f] :=
  C91_link_options 0 0 0 0 0xef 0x0f [] (by decide)

end Dot15d4.Props
