import Verif.Lemmas.CsmaFrames
import Verif.Props.FrameControl

/-!
# C43, C44, C45, C50: what the CSMA device does with the contents of frames
-/

namespace Dot15d4.Props
open Dot15d4 Out Spec Csma

/-! ## C43 -/

theorem isBroadcast_iff (d : Address) :
    d.isBroadcast = true ↔ d = .short ⟨[0xff, 0xff], rfl⟩ := by
  simp [Address.isBroadcast, Address.BROADCAST]

/-- **C43**, exactly: on every accepted frame the filter returns, and it lets the frame through
iff its destination PAN id (if any) is ours or broadcast and its destination is broadcast, our
short or our extended address; a frame without addressing fields passes iff implicit broadcast
is configured. -/
theorem C43_filter_partial (c : Consts) (hw : Arr 8) (h : Header) (hf : h.WellFormed)
    (hacc : Acceptable h.bytes) :
    ∃ r, isPackageForUs c hw h.bytes = .ok r ∧
      (r = true ↔ ForUs c.panId c.implicitBroadcast hw h) := by
  obtain ⟨hty, hv, -⟩ := header_known hacc
  simp only [Header.fc] at hty hv
  simp only [isPackageForUs, header_fc, bind_ok, fc_frameType, fc_version, if_neg hty, if_neg hv,
    header_dst hf hacc, header_addressing hf hacc]
  cases ha : h.addressing with
  | none =>
    cases hi : c.implicitBroadcast with
    | false => exact ⟨false, by simp, by simp [ForUs, ha]⟩
    | true =>
      refine ⟨true, ?_, by simp [ForUs, ha]⟩
      simp [Address.isBroadcast]
  | some a =>
    simp only [Option.map_some, bind_ok, (header_read hf ha hacc).1, ForUs, ha]
    have hpan : (a.dstPan.getD BROADCAST_PAN_ID ≠ c.panId ∧
        a.dstPan.getD BROADCAST_PAN_ID ≠ BROADCAST_PAN_ID) ↔ ¬ PanOk c.panId a.dstPan := by
      cases hp : a.dstPan with
      | none => simp [PanOk]
      | some p => simp [PanOk, BROADCAST_PAN_ID]
    by_cases hok : PanOk c.panId a.dstPan
    · rw [if_neg (by rw [hpan]; simpa using hok)]
      by_cases hb : a.dst.isBroadcast = true
      · exact ⟨true, by simp [hb], by simp [hok, AddrOk, (isBroadcast_iff _).1 hb]⟩
      · rw [if_neg hb]
        have hb' : a.dst ≠ .short ⟨[0xff, 0xff], rfl⟩ := fun e => hb ((isBroadcast_iff _).2 e)
        cases hd : a.dst with
        | absent => exact ⟨false, rfl, by simp [AddrOk]⟩
        | short x =>
          have e1 : sliceFrom hw.1 6 = .ok (hw.1.drop 6) := sliceFrom_ok (by simp [hw.2])
          have e2 : sliceTo x.1 2 = .ok x.1 := by
            rw [sliceTo_ok (by simp [x.2]), List.take_of_length_le (by simp [x.2])]
          rw [hd] at hb'
          refine ⟨hw.1.drop 6 == x.1, by simp [e1, e2], ?_⟩
          simp only [hok, true_and, AddrOk, beq_iff_eq, hb', false_or, Address.short.injEq,
            reduceCtorEq, or_false, shortOf, Subtype.ext_iff]
          exact eq_comm
        | extended x =>
          refine ⟨hw == x, rfl, ?_⟩
          simp only [hok, true_and, AddrOk, beq_iff_eq, reduceCtorEq, false_or,
            Address.extended.injEq]
          exact eq_comm
    · exact ⟨false, by rw [if_pos (hpan.2 hok)], by simp [hok]⟩

/-- **C43.** A frame whose type or version is not one of the standard's never passes the filter,
whatever its addresses. -/
theorem C43_unknown_kinds (c : Consts) (hw : Arr 8) (o0 o1 : Byte) (rest : Bytes)
    (h : (decodeFc o0 o1).frameType = .unknown ∨ (decodeFc o0 o1).frameVersion = .unknown) :
    isPackageForUs c hw (o0 :: o1 :: rest) = .ok false := by
  simp only [isPackageForUs, df_frameControl, bind_ok, fc_frameType, fc_version]
  split
  · rfl
  · rename_i h1
    rw [if_pos (h.resolve_left h1)]

/-- Non-vacuity: a broadcast data frame that is let through in version 2006 is not in version 3. -/
example : (decodeFc 0x41 0xb8).frameVersion = .unknown ∧
    isPackageForUs {} ⟨[1, 2, 3, 4, 5, 6, 7, 8], rfl⟩
      [0x41, 0x98, 9, 0xff, 0xff, 0xff, 0xff, 1, 2, 3] = .ok true ∧
    isPackageForUs {} ⟨[1, 2, 3, 4, 5, 6, 7, 8], rfl⟩
      [0x41, 0xb8, 9, 0xff, 0xff, 0xff, 0xff, 1, 2, 3] = .ok false := by decide

/-- The full property, in which implicit broadcast is about all frames without a destination. -/
def C43_statement : Prop := ∀ (c : Consts) (hw : Arr 8) (h : Header), h.WellFormed →
  Acceptable h.bytes → ∃ r, isPackageForUs c hw h.bytes = .ok r ∧
    (r = true ↔ ForUsIntended c.panId c.implicitBroadcast hw h)

/-- It is what is proved above if implicit broadcast is not configured (the default). -/
theorem C43_filter_default (c : Consts) (hc : c.implicitBroadcast = false) (hw : Arr 8) (h : Header)
    (hf : h.WellFormed) (hacc : Acceptable h.bytes) :
    ∃ r, isPackageForUs c hw h.bytes = .ok r ∧
      (r = true ↔ ForUsIntended c.panId c.implicitBroadcast hw h) := by
  obtain ⟨r, h1, h2⟩ := C43_filter_partial c hw h hf hacc
  refine ⟨r, h1, h2.trans ?_⟩
  simp [ForUs, ForUsIntended, hc]

/-- A data frame (2006) from a short address, without destination. -/
def sourceOnly : Header :=
  { o0 := 0x01, o1 := 0x90, seq := some 7
    addressing := some ⟨none, .absent, some 0xabcd, .short ⟨[1, 2], rfl⟩⟩
    rest := [1] }

theorem sourceOnly_ok : sourceOnly.WellFormed ∧ Acceptable sourceOnly.bytes := by
  refine ⟨⟨by decide, by decide, by decide, by decide⟩, by decide, by decide, 0x01, 0x90, _, rfl,
    by decide, by decide, by decide, by decide, by decide, by decide⟩

/-- It is false in general: with implicit broadcast configured, a frame that has a source but no
destination is dropped. -/
theorem C43_false : ¬ C43_statement := by
  intro h
  obtain ⟨r, h1, h2⟩ := h { implicitBroadcast := true } ⟨[1, 2, 3, 4, 5, 6, 7, 8], rfl⟩ sourceOnly
    sourceOnly_ok.1 sourceOnly_ok.2
  have : isPackageForUs { implicitBroadcast := true } ⟨[1, 2, 3, 4, 5, 6, 7, 8], rfl⟩
      sourceOnly.bytes = .ok false := by decide
  rw [this] at h1
  cases h1
  exact absurd (h2.2 ⟨by simp [sourceOnly, PanOk], Or.inr ⟨rfl, rfl⟩⟩) (by simp)

/-- A data frame to a short address, with payload. -/
def toShort (d : Arr 2) (pan : BitVec 16) : Header :=
  { o0 := 0x41, o1 := 0x98, seq := some 9
    addressing := some ⟨some pan, .short d, none, .short ⟨[1, 2], rfl⟩⟩
    rest := [1, 2, 3] }

/-- Non-vacuity for C43: a frame to our short address passes, one to somebody else does not. -/
example : (toShort ⟨[7, 8], rfl⟩ 0xffff).WellFormed ∧
    Acceptable (toShort ⟨[7, 8], rfl⟩ 0xffff).bytes ∧
    isPackageForUs {} ⟨[1, 2, 3, 4, 5, 6, 7, 8], rfl⟩ (toShort ⟨[7, 8], rfl⟩ 0xffff).bytes = .ok true ∧
    isPackageForUs {} ⟨[1, 2, 3, 4, 5, 6, 7, 8], rfl⟩ (toShort ⟨[8, 7], rfl⟩ 0xffff).bytes =
      .ok false ∧
    isPackageForUs {} ⟨[1, 2, 3, 4, 5, 6, 7, 8], rfl⟩ (toShort ⟨[7, 8], rfl⟩ 0x1234).bytes =
      .ok false :=
  ⟨⟨by decide, by decide, by decide, by decide⟩,
    ⟨by decide, by decide, 0x41, 0x98, _, rfl, by decide, by decide, by decide, by decide,
      by decide, by decide⟩, by decide, by decide, by decide⟩

/-! ## C45 -/

/-- Changing only the ack request bit of the frame control field keeps the header. -/
theorem header_setAck {h : Header} (hf : h.WellFormed) (hacc : Acceptable h.bytes) (v : Bool) :
    ∃ o0 o1, DataFrame.frameControlMut h.bytes (FrameControl.setAckRequest · v) =
        .ok ({ h with o0 := o0, o1 := o1 } : Header).bytes ∧
      decodeFc o0 o1 = { h.fc with ackRequest := h.fc.ackRequest || v } ∧
      fcBit o0 o1 7 = fcBit h.o0 h.o1 7 ∧
      ({ h with o0 := o0, o1 := o1 } : Header).WellFormed ∧
      Acceptable ({ h with o0 := o0, o1 := o1 } : Header).bytes := by
  obtain ⟨o0, o1, e, hd, h7⟩ := (C02_bool_setters_or_partial h.o0 h.o1 [] v).2.2.1
  refine ⟨o0, o1, ?_, hd, h7, ?_, ?_⟩
  · simp only at e
    simp only [DataFrame.frameControlMut, Header.bytes, List.cons_append, List.nil_append, modifyTo,
      sliceTo_ok (b := h.o0 :: h.o1 :: _) (i := 2) (by simp), bind_ok, List.take_succ_cons,
      List.take_zero, List.drop_succ_cons, List.drop_zero, e]
  · obtain ⟨h1, h2⟩ := hf
    refine ⟨?_, ?_⟩
    · simp only [Header.fc, hd]; exact h1
    · cases ha : h.addressing with
      | none =>
        simp only [ha, fcPans, fcAddrLen, hd] at h2 ⊢
        exact h2
      | some a =>
        simp only [ha, fcPans, Header.fc, hd] at h2 ⊢
        exact h2
  · obtain ⟨h2, h127, p0, p1, l, ep, hlen, hsec, hty, hv, hdm, hsm⟩ := hacc
    obtain ⟨rfl, rfl, rfl⟩ : h.o0 = p0 ∧ h.o1 = p1 ∧
        (h.seq.toList ++ addressingBytes h.addressing ++ h.rest) = l := by
      simpa [Header.bytes] using ep
    have el : ({ h with o0 := o0, o1 := o1 } : Header).bytes.length = h.bytes.length := by
      simp [Header.bytes]
    refine ⟨by omega, by omega, o0, o1, (h.seq.toList ++ addressingBytes h.addressing ++ h.rest),
      by simp [Header.bytes], ?_⟩
    rw [el, hd]
    exact ⟨hlen, hsec, hty, hv, hdm, hsm⟩

/-- **C45**, exactly: on every outgoing buffer with an accepted frame in it the request bit becomes
"it was set, or it is wanted"; the sequence number to wait for is returned iff it is wanted (and
the frame has one); nothing else in the buffer changes. -/
theorem C45_ack_bit_partial (D : Device) (buffer : Bytes) (n : Nat) (h : Header)
    (hn : D.format.frameLen buffer = some n) (hb : D.format.data buffer n = h.bytes)
    (hf : h.WellFormed) (hacc : Acceptable h.bytes) :
    ∃ (o0 o1 : Byte) (want : Bool),
      (want = true ↔ WantsAck D.config h) ∧
      setAckRequestIfPossible D buffer =
        .ok (.ok (if want then h.seq.map fun s => (s, BitVec.ofNat 8 h.bytes.length) else none),
          D.format.putData buffer n ({ h with o0 := o0, o1 := o1 } : Header).bytes) ∧
      decodeFc o0 o1 = { h.fc with ackRequest := h.fc.ackRequest || want } ∧
      fcBit o0 o1 7 = fcBit h.o0 h.o1 7 ∧
      ({ h with o0 := o0, o1 := o1 } : Header).WellFormed ∧
      Acceptable ({ h with o0 := o0, o1 := o1 } : Header).bytes := by
  suffices key : ∃ want : Bool, (want = true ↔ WantsAck D.config h) ∧
      ∀ o0 o1, DataFrame.frameControlMut h.bytes (FrameControl.setAckRequest · want) =
        .ok ({ h with o0 := o0, o1 := o1 } : Header).bytes →
        ({ h with o0 := o0, o1 := o1 } : Header).WellFormed →
        setAckRequestIfPossible D buffer =
        .ok (.ok (if want then h.seq.map fun s => (s, BitVec.ofNat 8 h.bytes.length) else none),
          D.format.putData buffer n ({ h with o0 := o0, o1 := o1 } : Header).bytes) by
    obtain ⟨want, hw, hk⟩ := key
    obtain ⟨o0, o1, e1, e2, e3, e4, e5⟩ := header_setAck hf hacc want
    exact ⟨o0, o1, want, hw, hk o0 o1 e1 e4, e2, e3, e4, e5⟩
  have pre : setAckRequestIfPossible D buffer = setAckRequestIfPossible D buffer := rfl
  conv at pre =>
    rhs
    simp only [setAckRequestIfPossible, hn, hb, new_header hacc, toOption, bind_ok, header_fc,
      fc_frameType, header_dst hf hacc]
  by_cases hty : (decodeFc h.o0 h.o1).frameType = .data ∨ (decodeFc h.o0 h.o1).frameType = .macCommand
  · rw [if_pos hty] at pre
    cases ha : h.addressing with
    | none =>
      refine ⟨false, by simp [WantsAck, NotBroadcast, Broadcast, ha], fun o0 o1 e1 _ => ?_⟩
      rw [pre]
      simp only [ha, Option.map_none, e1, bind_ok]
      simp
    | some a =>
      by_cases hbc : a.dst.isBroadcast = true
      · have hbc' := (isBroadcast_iff _).1 hbc
        have hu : a.dst.isUnicast = false := by simp [Address.isUnicast, hbc]
        refine ⟨D.config.ackBroadcast, ?_, fun o0 o1 e1 e4 => ?_⟩
        · simp [WantsAck, NotBroadcast, Broadcast, ha, hbc', Header.fc, hty]
        · rw [pre]
          simp only [ha, Option.map_some, hu, hbc, Bool.false_and, Bool.true_and, bind_ok]
          cases hcfg : D.config.ackBroadcast with
          | false => rw [hcfg] at e1; simp [e1]
          | true =>
            rw [hcfg] at e1
            have := header_seq e4
            simp only [Bool.false_eq_true, if_false, if_true, e1, bind_ok, this]
      · have hbc' : a.dst ≠ .short ⟨[0xff, 0xff], rfl⟩ := fun e => hbc ((isBroadcast_iff _).2 e)
        have hbf : a.dst.isBroadcast = false := by simpa using hbc
        have hu : a.dst.isUnicast = true := by simp [Address.isUnicast, hbf]
        refine ⟨D.config.ackUnicast, ?_, fun o0 o1 e1 e4 => ?_⟩
        · refine ⟨fun hon => ⟨hty, Or.inl ⟨⟨a, ha, hbc'⟩, hon⟩⟩, fun hw => ?_⟩
          rcases hw.2 with hw | ⟨⟨a', ha', hb'⟩, _⟩
          · exact hw.2
          · rw [ha] at ha'
            cases ha'
            exact absurd hb' hbc'
        · rw [pre]
          simp only [ha, Option.map_some, hu, hbf, Bool.false_and, Bool.true_and, bind_ok]
          cases hcfg : D.config.ackUnicast with
          | false => rw [hcfg] at e1; simp [e1]
          | true =>
            rw [hcfg] at e1
            have := header_seq e4
            simp only [if_true, e1, bind_ok, this]
  · rw [if_neg hty] at pre
    refine ⟨false, ?_, fun o0 o1 e1 _ => ?_⟩
    · simp only [Bool.false_eq_true, false_iff, WantsAck, Header.fc]
      exact fun hh => hty hh.1
    · rw [pre]
      simp only [e1, bind_ok]
      simp

/-- **C45**, C50: a buffer without an accepted frame is reported and left alone. -/
theorem C45_invalid (D : Device) (buffer : Bytes) :
    (D.format.frameLen buffer = none →
      setAckRequestIfPossible D buffer = .ok (.error .invalidDeviceFrame, buffer) ∧
      overwritePanId D buffer = .ok (.error .invalidDeviceFrame, buffer)) ∧
    ∀ n, D.format.frameLen buffer = some n → ¬ Acceptable (D.format.data buffer n) →
      setAckRequestIfPossible D buffer = .ok (.error .invalidIeeeFrame, buffer) ∧
      overwritePanId D buffer = .ok (.error .invalidIeeeFrame, buffer) := by
  refine ⟨fun h => ?_, fun n hn hna => ?_⟩
  · simp [setAckRequestIfPossible, overwritePanId, h]
  · simp [setAckRequestIfPossible, overwritePanId, hn, new_not hna]

/-- The documented property: the bit is set iff the frame is addressed to a single device (or
broadcast, and that is configured). -/
def C45_statement : Prop := ∀ (D : Device) (buffer : Bytes) (n : Nat) (h : Header),
  D.format.frameLen buffer = some n → D.format.data buffer n = h.bytes → h.WellFormed →
  Acceptable h.bytes → ∃ (o0 o1 : Byte) (r : Option (Byte × Byte)),
    setAckRequestIfPossible D buffer =
      .ok (.ok r, D.format.putData buffer n ({ h with o0 := o0, o1 := o1 } : Header).bytes) ∧
    ((decodeFc o0 o1).ackRequest = true ↔ WantsAckIntended D.config h)

/-- A radio whose buffers hold a length octet and then the frame. -/
def lengthFormat : RadioFormat where
  frameLen b := match b with
    | [] => none
    | l :: b => if l.toNat ≤ b.length then some l.toNat else none
  dataOff := 1
  header n b := b.set 0 (BitVec.ofNat 8 n)
  tokenOff := 1

theorem lengthFormat_lawful : lengthFormat.Lawful where
  frame_inside b n h := by
    match b, h with
    | l :: b, h =>
      simp only [lengthFormat] at h ⊢
      split at h
      · cases h; simp; omega
      · cases h
  frame_stable b n d h hd := by
    match b, h with
    | l :: b, h =>
      simp only [lengthFormat] at h
      split at h
      · rename_i hl
        cases h
        simp only [lengthFormat, RadioFormat.putData, List.take_succ_cons, List.take_zero,
          List.cons_append, List.nil_append, Nat.add_comm 1, List.drop_succ_cons]
        rw [if_pos (by simp [hd])]
      · cases h
  header_length n b := by simp [lengthFormat]
  header_outside n b := by cases b <;> simp [lengthFormat]
  ack_fits := by decide

/-- A device with it. -/
def exampleDevice : Device :=
  { format := lengthFormat, hardwareAddress := ⟨[1, 2, 3, 4, 5, 6, 7, 8], rfl⟩ }

/-- C45_invalid: no device frame; no IEEE 802.15.4 frame. -/
example : setAckRequestIfPossible exampleDevice [200] = .ok (.error .invalidDeviceFrame, [200]) ∧
    overwritePanId exampleDevice [2, 0x04, 0x00] = .ok (.error .invalidIeeeFrame, [2, 0x04, 0x00]) := by
  refine ⟨((C45_invalid exampleDevice [200]).1 (by decide)).1,
    ((C45_invalid exampleDevice _).2 2 (by decide) ?_).2⟩
  show ¬ Acceptable [0x04, 0x00]
  rintro ⟨-, -, o0, o1, l, h, -, -, h1, -⟩
  simp only [List.cons.injEq] at h
  obtain ⟨rfl, rfl, -⟩ := h
  exact absurd h1 (by decide)

/-- An immediate ack with a stray ack request bit. -/
def strayAck : Header := { o0 := 0x22, o1 := 0x10, seq := some 7, addressing := none, rest := [] }

theorem strayAck_ok : strayAck.WellFormed ∧ Acceptable strayAck.bytes :=
  ⟨⟨by decide, by intro p hp; revert hp; simp only [strayAck]; rw [show fcPans 0x22 0x10 = none by decide]; simp⟩,
    by decide, by decide, 0x22, 0x10, _, rfl, by decide, by decide, by decide, by decide, by decide, by decide⟩

/-- It is false: a bit the upper layer has set is never cleared, although the code says it is. -/
theorem C45_false : ¬ C45_statement := by
  intro hs
  obtain ⟨o0, o1, r, e, hiff⟩ := hs exampleDevice ([3] ++ strayAck.bytes) 3 strayAck (by decide)
    (by decide) strayAck_ok.1 strayAck_ok.2
  obtain ⟨p0, p1, want, hw, e', hd, -⟩ := C45_ack_bit_partial exampleDevice ([3] ++ strayAck.bytes) 3
    strayAck (by decide) (by decide) strayAck_ok.1 strayAck_ok.2
  rw [e] at e'
  simp only [Out.ok.injEq, Prod.mk.injEq] at e'
  have e2 := e'.2
  simp [RadioFormat.putData, exampleDevice, lengthFormat, Header.bytes, strayAck] at e2
  obtain ⟨rfl, rfl⟩ := e2
  rw [hd] at hiff
  have := hiff.1 (by simp; left; decide)
  exact absurd this.1 (by decide)

/-- Also false the other way round: a frame without a destination gets the bit. -/
theorem C45_false_no_destination : ∃ (D : Device) (buffer : Bytes) (n : Nat) (h : Header),
    D.format.frameLen buffer = some n ∧ D.format.data buffer n = h.bytes ∧ h.WellFormed ∧
    Acceptable h.bytes ∧ h.fc.ackRequest = false ∧ ¬ WantsAckIntended D.config h ∧
    setAckRequestIfPossible D buffer = .ok (.ok (some (7, 8)),
      D.format.putData buffer n ({ h with o0 := 0x21 } : Header).bytes) ∧
    (decodeFc 0x21 h.o1).ackRequest = true := by
  refine ⟨exampleDevice, [8] ++ sourceOnly.bytes, 8, sourceOnly, by decide, by decide,
    sourceOnly_ok.1, sourceOnly_ok.2, by decide, ?_, by decide, by decide⟩
  rintro ⟨-, ⟨⟨a, ha, hb, hc⟩, -⟩ | ⟨⟨a, ha, hb⟩, -⟩⟩
  · cases ha
    exact hc rfl
  · cases ha
    cases hb

/-- Non-vacuity for C45: a unicast data frame gets the bit and its sequence number is awaited. -/
example : setAckRequestIfPossible exampleDevice ([12] ++ (toShort ⟨[7, 8], rfl⟩ 0xffff).bytes) =
    .ok (.ok (some (9, 12)),
      [12] ++ ({ toShort ⟨[7, 8], rfl⟩ 0xffff with o0 := 0x61 } : Header).bytes) := by decide

/-! ## C50 -/

/-- **C50**.  On every outgoing buffer with an accepted frame in it, exactly the PAN ids that are
present and configured to be overwritten become the device's PAN id; nothing else changes. -/
theorem C50_overwrite (D : Device) (buffer : Bytes) (n : Nat) (h : Header)
    (hn : D.format.frameLen buffer = some n) (hb : D.format.data buffer n = h.bytes)
    (hf : h.WellFormed) (hacc : Acceptable h.bytes) :
    overwritePanId D buffer =
      .ok (.ok (), D.format.putData buffer n (h.overwrite D).bytes) ∧
    (h.overwrite D).WellFormed ∧ (h.overwrite D).bytes.length = h.bytes.length := by
  have same : D.format.putData buffer n h.bytes = buffer := by
    rw [← hb]
    simp only [RadioFormat.putData, RadioFormat.data]
    rw [← List.drop_drop, List.append_assoc, List.take_append_drop, List.take_append_drop]
  have hlenA : ∀ (on : Bool) (pan : Option (BitVec 16)),
      (overwritten on D.consts.panId pan).isSome = pan.isSome := by
    intro on pan; cases pan <;> rfl
  have hwf : (h.overwrite D).WellFormed := by
    refine ⟨hf.1, ?_⟩
    have h2 := hf.2
    cases ha : h.addressing with
    | none => simp only [ha, Header.overwrite, Option.map_none] at h2 ⊢; exact h2
    | some a =>
      simp only [ha, Header.overwrite, Option.map_some, hlenA] at h2 ⊢; exact h2
  have hbl : (h.overwrite D).bytes.length = h.bytes.length := by
    cases ha : h.addressing with
    | none => simp [Header.overwrite, ha, Header.bytes]
    | some a =>
      simp [Header.overwrite, ha, Header.bytes, addressingBytes, Addressing.bytes,
        addressing_length, hlenA]
  refine ⟨?_, hwf, hbl⟩
  cases ha : h.addressing with
  | none =>
    have : h.overwrite D = h := by
      cases h; simp only at ha; subst ha; rfl
    simp only [overwritePanId, hn, hb, new_header hacc, toOption, bind_ok,
      header_addressing hf hacc, ha, Option.map_none, this, same]
  | some a =>
    obtain ⟨r1, r2, r3, r4⟩ := header_read hf ha hacc
    have hset : ∀ a' : Addressing, a'.bytes.length = a.bytes.length →
        DataFrame.setAddressingFields h.bytes ⟨a'.dstPan, some a'.dst, a'.srcPan, some a'.src⟩ =
          .ok ({ h with addressing := some a' } : Header).bytes := by
      intro a' hl
      have hseq := hf.1
      simp only [Header.fc] at hseq
      simp only [DataFrame.setAddressingFields, header_fc, bind_ok, fc_sup]
      have hstart : (2 + if (decodeFc h.o0 h.o1).seqNoSuppression then 0 else 1) =
          ([h.o0, h.o1] ++ h.seq.toList).length := by
        cases hs : h.seq <;> simp [hs] at hseq <;> simp [hseq]
      have hbytes : h.bytes = ([h.o0, h.o1] ++ h.seq.toList) ++ (a.bytes ++ h.rest) := by
        simp [Header.bytes, ha, addressingBytes]
      rw [hstart, hbytes, modifyFrom, sliceFrom_ok (by simp), bind_ok, List.drop_left,
        C06_write _ _ _ _ _ (by
          have : (Spec.addressing a'.dstPan a'.dst a'.srcPan a'.src).length = a.bytes.length := hl
          rw [this]; simp), bind_ok, List.take_left]
      have e : (Spec.addressing a'.dstPan a'.dst a'.srcPan a'.src).length = a.bytes.length := hl
      rw [e, List.drop_left]
      simp [Header.bytes, addressingBytes, Addressing.bytes]
    have hh : ∀ a', a' = a → ({ h with addressing := some a' } : Header) = h := by
      rintro a' rfl
      cases h
      simp only at ha
      subst ha
      rfl
    simp only [overwritePanId, hn, hb, new_header hacc, toOption, bind_ok,
      header_addressing hf hacc, ha, Option.map_some, AddressingFieldsRepr.parse, r1, r2, r3, r4,
      Header.overwrite]
    have pd : ∀ (on : Bool) (pan : Option (BitVec 16)),
        (on && panDiffers D.consts pan) = true ∧ overwritten on D.consts.panId pan = some D.consts.panId ∨
        (on && panDiffers D.consts pan) = false ∧ overwritten on D.consts.panId pan = pan := by
      intro on pan
      cases pan with
      | none => right; simp [panDiffers, overwritten]
      | some p =>
        cases on with
        | false => right; simp [overwritten]
        | true =>
          by_cases hp : p = D.consts.panId
          · right; simp [panDiffers, overwritten, hp]
          · left; simp [panDiffers, overwritten, hp]
    have hbl' : ∀ (p q : Option (BitVec 16)), p.isSome = a.dstPan.isSome →
        q.isSome = a.srcPan.isSome →
        ({ a with dstPan := p, srcPan := q } : Addressing).bytes.length = a.bytes.length := by
      intro p q hp hq
      simp [Addressing.bytes, addressing_length, hp, hq]
    have hl := hbl' _ _ (hlenA D.config.overwriteDstPanId a.dstPan)
      (hlenA D.config.overwriteSrcPanId a.srcPan)
    have hs := hset _ hl
    rcases pd D.config.overwriteSrcPanId a.srcPan with ⟨c1, e1⟩ | ⟨c1, e1⟩ <;>
    rcases pd D.config.overwriteDstPanId a.dstPan with ⟨c2, e2⟩ | ⟨c2, e2⟩ <;>
    simp only [e1, e2] at hs ⊢ <;>
    simp only [c1, c2, if_true, if_false, Bool.false_eq_true, bind_ok, hs, hh _ rfl, same]

/-- Non-vacuity for C50: the source PAN id of a frame is overwritten by default, the destination's
is not. -/
example : overwritePanId exampleDevice ([8] ++ sourceOnly.bytes) =
    .ok (.ok (), [8] ++ ({ sourceOnly with
      addressing := some ⟨none, .absent, some 0xffff, .short ⟨[1, 2], rfl⟩⟩ } : Header).bytes) := by
  decide

end Dot15d4.Props
