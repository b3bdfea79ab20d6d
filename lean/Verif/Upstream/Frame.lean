import Verif.Model.Repr
import Verif.Model.Macro
import Verif.Model.Display

/-!
# The tests of dot15d4-frame, replayed on the model

The inputs and expected outputs of the unit tests in `/repo/dot15d4-frame`, as they stand there,
checked against the model's definitions.  They are no proofs of anything for all inputs; they are here
because they pass in the real program, so a model that disagreed with one of them would be wrong.
-/

namespace Dot15d4.Upstream
open Dot15d4 Out

/-! ## src/frame_control.rs:285-396 -/

/-- `bad_length` -/
example : FrameControl.new [0x0] = .err := rfl

/-- What `get_fields` reads. -/
def fields (b : Bytes) : Out FrameControlRepr := do
  let fc ← FrameControl.new b
  .ok {
    frameType := ← FrameControl.frameType fc
    securityEnabled := ← FrameControl.securityEnabled fc
    framePending := ← FrameControl.framePending fc
    ackRequest := ← FrameControl.ackRequest fc
    panIdCompression := ← FrameControl.panIdCompression fc
    seqNoSuppression := ← FrameControl.seqNoSuppression fc
    iePresent := ← FrameControl.iePresent fc
    dstMode := ← FrameControl.dstMode fc
    srcMode := ← FrameControl.srcMode fc
    frameVersion := ← FrameControl.frameVersion fc }

/-- `get_fields` -/
example : fields [0x0, 0x0] = .ok ⟨.beacon, false, false, false, false, false, false, .absent,
    .absent, .v2003⟩ ∧
  fields [0b00101001, 0b10101010] = .ok ⟨.data, true, false, true, false, false, true, .short,
    .short, .v2020⟩ := by decide

/-- `set_fields` -/
example : (do
    let b ← FrameControl.setFrameType [0, 0] .beacon
    let b ← FrameControl.setSecurityEnabled b false
    let b ← FrameControl.setFramePending b false
    let b ← FrameControl.setAckRequest b false
    let b ← FrameControl.setPanIdCompression b false
    let b ← FrameControl.setSeqNoSuppression b false
    let b ← FrameControl.setIePresent b false
    let b ← FrameControl.setDstMode b .absent
    let b ← FrameControl.setSrcMode b .absent
    FrameControl.setFrameVersion b .v2003) = .ok [0, 0] ∧
  (do
    let b ← FrameControl.setFrameType [0, 0] .data
    let b ← FrameControl.setSecurityEnabled b true
    let b ← FrameControl.setFramePending b false
    let b ← FrameControl.setAckRequest b true
    let b ← FrameControl.setPanIdCompression b false
    let b ← FrameControl.setSeqNoSuppression b false
    let b ← FrameControl.setIePresent b true
    let b ← FrameControl.setDstMode b .short
    let b ← FrameControl.setSrcMode b .short
    FrameControl.setFrameVersion b .v2020) = .ok [0b00101001, 0b10101010] := by decide

/-- `frame_type` -/
example : FrameType.ofU8 0b000 = .beacon ∧ FrameType.ofU8 0b001 = .data ∧
    FrameType.ofU8 0b010 = .ack ∧ FrameType.ofU8 0b011 = .macCommand ∧
    FrameType.ofU8 0b101 = .multipurpose ∧ FrameType.ofU8 0b110 = .fragmentOrFrak ∧
    FrameType.ofU8 0b111 = .extended ∧ FrameType.ofU8 0b100 = .unknown := by decide

/-- `frame_version` -/
example : FrameVersion.ofU8 0b00 = .v2003 ∧ FrameVersion.ofU8 0b01 = .v2006 ∧
    FrameVersion.ofU8 0b10 = .v2020 ∧ FrameVersion.ofU8 0b11 = .unknown := by decide

/-! ## src/addressing.rs:503-671 -/

/-- `[v; 8]` -/
def eight (v : Byte) : Arr 8 := ⟨List.replicate 8 v, by simp⟩

/-- `address_type` -/
example : Address.absent.isAbsent = true ∧ Address.absent.isShort = false ∧
    Address.absent.isExtended = false ∧
    (Address.short ⟨[0xff, 0xff], rfl⟩).isAbsent = false ∧
    (Address.short ⟨[0xff, 0xff], rfl⟩).isShort = true ∧
    (Address.short ⟨[0xff, 0xff], rfl⟩).isExtended = false ∧
    (Address.extended (eight 0xff)).isAbsent = false ∧
    (Address.extended (eight 0xff)).isShort = false ∧
    (Address.extended (eight 0xff)).isExtended = true ∧
    Address.absent.len = 0 ∧ (Address.short ⟨[0xff, 0xff], rfl⟩).len = 2 ∧
    (Address.extended (eight 0xff)).len = 8 := by decide

/-- `addressing_mode` -/
example : AddressingMode.ofU8 0b00 = .absent ∧ AddressingMode.ofU8 0b10 = .short ∧
    AddressingMode.ofU8 0b11 = .extended ∧ AddressingMode.ofU8 0b01 = .unknown ∧
    AddressingMode.unknown.size = 0 ∧ AddressingMode.absent.size = 0 ∧
    AddressingMode.short.size = 2 ∧ AddressingMode.extended.size = 8 := by decide

/-- `is_broadcast` -/
example : Address.BROADCAST.isBroadcast = true ∧
    (Address.short ⟨[0xff, 0xff], rfl⟩).isBroadcast = true ∧
    (Address.short ⟨[0xff, 0xfe], rfl⟩).isBroadcast = false ∧
    Address.BROADCAST.isUnicast = false ∧ (Address.short ⟨[0xff, 0xff], rfl⟩).isUnicast = false ∧
    (Address.short ⟨[0xff, 0xfe], rfl⟩).isUnicast = true := by decide

/-- `as_bytes` -/
example : Address.BROADCAST.asBytes = [0xff, 0xff] ∧
    (Address.short ⟨[0xff, 0xff], rfl⟩).asBytes = [0xff, 0xff] ∧
    (Address.short ⟨[0xff, 0xfe], rfl⟩).asBytes = [0xff, 0xfe] ∧
    (Address.extended (eight 0xff)).asBytes = List.replicate 8 0xff ∧
    (Address.extended (eight 1)).asBytes = List.replicate 8 1 ∧
    Address.absent.asBytes = [] := by decide

/-- `from_bytes`, `from_bytes_panic` -/
example : Address.ofBytes [0xff, 0xff] = .ok (.short ⟨[0xff, 0xff], rfl⟩) ∧
    Address.ofBytes [0xff, 0xfe] = .ok (.short ⟨[0xff, 0xfe], rfl⟩) ∧
    Address.ofBytes (List.replicate 8 0xff) = .ok (.extended (eight 0xff)) ∧
    Address.ofBytes (List.replicate 8 1) = .ok (.extended (eight 1)) ∧
    Address.ofBytes [] = .ok .absent ∧ Address.ofBytes [0xff, 0xff, 0xff] = .panic := by decide

/-- `address_present_flags` -/
example :
    addressPresentFlags .v2003 .short .short false = some ⟨true, .short, true, .short⟩ ∧
    addressPresentFlags .v2003 .short .short true = some ⟨true, .short, false, .short⟩ ∧
    addressPresentFlags .v2003 .extended .extended false = some ⟨true, .extended, true, .extended⟩ ∧
    addressPresentFlags .v2003 .extended .extended true = some ⟨true, .extended, false, .extended⟩ ∧
    addressPresentFlags .v2003 .short .extended false = some ⟨true, .short, true, .extended⟩ ∧
    addressPresentFlags .v2003 .short .extended true = some ⟨true, .short, false, .extended⟩ ∧
    addressPresentFlags .v2003 .extended .short false = some ⟨true, .extended, true, .short⟩ ∧
    addressPresentFlags .v2003 .extended .short true = some ⟨true, .extended, false, .short⟩ ∧
    addressPresentFlags .v2003 .absent .short false = some ⟨false, .absent, true, .short⟩ ∧
    addressPresentFlags .v2003 .absent .extended false = some ⟨false, .absent, true, .extended⟩ ∧
    addressPresentFlags .v2003 .short .absent false = some ⟨true, .short, false, .absent⟩ ∧
    addressPresentFlags .v2003 .extended .absent false = some ⟨true, .extended, false, .absent⟩ ∧
    addressPresentFlags .v2003 .absent .short true = none ∧
    addressPresentFlags .v2003 .absent .extended true = none ∧
    addressPresentFlags .v2003 .short .absent true = none ∧
    addressPresentFlags .v2003 .extended .absent true = none ∧
    addressPresentFlags .v2003 .absent .absent false = none ∧
    addressPresentFlags .v2003 .absent .absent true = none ∧
    addressPresentFlags .v2006 .short .short false = some ⟨true, .short, true, .short⟩ ∧
    addressPresentFlags .v2006 .short .short true = some ⟨true, .short, false, .short⟩ ∧
    addressPresentFlags .v2006 .extended .extended false = some ⟨true, .extended, true, .extended⟩ ∧
    addressPresentFlags .v2006 .extended .extended true = some ⟨true, .extended, false, .extended⟩ ∧
    addressPresentFlags .v2006 .short .extended false = some ⟨true, .short, true, .extended⟩ ∧
    addressPresentFlags .v2006 .short .extended true = some ⟨true, .short, false, .extended⟩ ∧
    addressPresentFlags .v2006 .extended .short false = some ⟨true, .extended, true, .short⟩ ∧
    addressPresentFlags .v2006 .extended .short true = some ⟨true, .extended, false, .short⟩ ∧
    addressPresentFlags .v2006 .absent .short false = some ⟨false, .absent, true, .short⟩ ∧
    addressPresentFlags .v2006 .absent .extended false = some ⟨false, .absent, true, .extended⟩ ∧
    addressPresentFlags .v2006 .short .absent false = some ⟨true, .short, false, .absent⟩ ∧
    addressPresentFlags .v2006 .extended .absent false = some ⟨true, .extended, false, .absent⟩ ∧
    addressPresentFlags .v2006 .absent .short true = none ∧
    addressPresentFlags .v2006 .absent .extended true = none ∧
    addressPresentFlags .v2006 .short .absent true = none ∧
    addressPresentFlags .v2006 .extended .absent true = none ∧
    addressPresentFlags .v2006 .absent .absent false = none ∧
    addressPresentFlags .v2006 .absent .absent true = none ∧
    addressPresentFlags .v2020 .short .short false = some ⟨true, .short, true, .short⟩ ∧
    addressPresentFlags .v2020 .short .short true = some ⟨true, .short, false, .short⟩ ∧
    addressPresentFlags .v2020 .extended .extended false = some ⟨true, .extended, false, .extended⟩ ∧
    addressPresentFlags .v2020 .extended .extended true = some ⟨false, .extended, false, .extended⟩ ∧
    addressPresentFlags .v2020 .short .extended false = some ⟨true, .short, true, .extended⟩ ∧
    addressPresentFlags .v2020 .short .extended true = some ⟨true, .short, false, .extended⟩ ∧
    addressPresentFlags .v2020 .extended .short false = some ⟨true, .extended, true, .short⟩ ∧
    addressPresentFlags .v2020 .extended .short true = some ⟨true, .extended, false, .short⟩ ∧
    addressPresentFlags .v2020 .absent .short false = some ⟨false, .absent, true, .short⟩ ∧
    addressPresentFlags .v2020 .absent .extended false = some ⟨false, .absent, true, .extended⟩ ∧
    addressPresentFlags .v2020 .short .absent false = some ⟨true, .short, false, .absent⟩ ∧
    addressPresentFlags .v2020 .extended .absent false = some ⟨true, .extended, false, .absent⟩ ∧
    addressPresentFlags .v2020 .absent .short true = some ⟨false, .absent, false, .short⟩ ∧
    addressPresentFlags .v2020 .absent .extended true = some ⟨false, .absent, false, .extended⟩ ∧
    addressPresentFlags .v2020 .short .absent true = some ⟨false, .short, false, .absent⟩ ∧
    addressPresentFlags .v2020 .extended .absent true = some ⟨false, .extended, false, .absent⟩ ∧
    addressPresentFlags .v2020 .absent .absent false = some ⟨false, .absent, false, .absent⟩ ∧
    addressPresentFlags .v2020 .absent .absent true = some ⟨true, .absent, false, .absent⟩ := by
  repeat' apply And.intro
  all_goals rfl

/-- `parse` -/
example : Address.parse [] = .ok .absent ∧
    Address.parse ['f', 'f', ':', 'f', 'f'] = .ok (.short ⟨[0xff, 0xff], rfl⟩) ∧
    Address.parse ['f', 'f', ':', 'f', 'e'] = .ok (.short ⟨[0xff, 0xfe], rfl⟩) ∧
    Address.parse ['f', 'f', ':', 'f', 'f', ':', 'f', 'f', ':', 'f', 'f', ':', 'f', 'f', ':', 'f',
      'f', ':', 'f', 'f', ':', 'f', 'f'] = .ok (.extended (eight 0xff)) ∧
    Address.parse ['0', '1', ':', '0', '1', ':', '0', '1', ':', '0', '1', ':', '0', '1', ':', '0',
      '1', ':', '0', '1', ':', '0', '1'] = .ok (.extended (eight 1)) ∧
    Address.parse ['0', '0', ':', '0', '0', ':', '0', '0', ':', '0', '0', ':', '0', '0', ':', '0',
      '0', ':', '0', '0', ':', '0', '0'] = .ok (.extended (eight 0)) ∧
    Address.parse ['0', '0', ':', '0', '0', ':', '0', '0', ':', '0', '0', ':', '0', '0', ':', '0',
      '0', ':', '0', '0', ':', '0', '1'] = .ok (.extended ⟨[0, 0, 0, 0, 0, 0, 0, 1], rfl⟩) := by
  decide +kernel

/-! ## src/ie/headers.rs:561-617 -/

/-- `header_iformation_element_id` -/
example :
    HeaderElementId.ofU8 0x00 = .vendorSpecificHeader ∧
    HeaderElementId.ofU8 0x1a = .csl ∧
    HeaderElementId.ofU8 0x1b = .rit ∧
    HeaderElementId.ofU8 0x1c = .dsmePanDescriptor ∧
    HeaderElementId.ofU8 0x1d = .rendezvousTime ∧
    HeaderElementId.ofU8 0x1e = .timeCorrection ∧
    HeaderElementId.ofU8 0x21 = .extendedDsmePanDescriptor ∧
    HeaderElementId.ofU8 0x22 = .fragmentSequenceContextDescription ∧
    HeaderElementId.ofU8 0x23 = .simplifiedSuperframeSpecification ∧
    HeaderElementId.ofU8 0x24 = .simplifiedGtsSpecification ∧
    HeaderElementId.ofU8 0x25 = .lecimCapabilities ∧
    HeaderElementId.ofU8 0x26 = .trleDescriptor ∧
    HeaderElementId.ofU8 0x27 = .rccCapabilities ∧
    HeaderElementId.ofU8 0x28 = .rccnDescriptor ∧
    HeaderElementId.ofU8 0x29 = .globalTime ∧
    HeaderElementId.ofU8 0x2b = .da ∧
    HeaderElementId.ofU8 0x7e = .headerTermination1 ∧
    HeaderElementId.ofU8 0x7f = .headerTermination2 ∧
    HeaderElementId.ofU8 0x80 = .unkown := by decide

/-! ## src/frames/mod.rs:263-326 -/

/-- `high_level_parsing` -/
example : (do let f ← Frame.new [0x02, 0x10, 0x01]; f.intoAck) = .ok [0x02, 0x10, 0x01] ∧
    (let b : Bytes := [0x02, 0x2e, 0x37, 0xcd, 0xab, 0x02, 0x00, 0x02, 0x00, 0x02, 0x00, 0x02, 0x00,
      0x02, 0x00, 0x02, 0x0f, 0xe1, 0x8f]
     (do let f ← Frame.new b; f.intoEnhancedAck) = .ok b) ∧
    (let b : Bytes := [0x40, 0xeb, 0xcd, 0xab, 0xff, 0xff, 0x01, 0x00, 0x01, 0x00, 0x01, 0x00, 0x01,
      0x00, 0x00, 0x3f, 0x11, 0x88, 0x06, 0x1a, 0x0e, 0x00, 0x00, 0x00, 0x00, 0x00, 0x01, 0x1c, 0x00,
      0x01, 0xc8, 0x00, 0x01, 0x1b, 0x00]
     (do let f ← Frame.new b; f.intoEnhancedBeacon) = .ok b) ∧
    (let b : Bytes := [0x41, 0xd8, 0x01, 0xcd, 0xab, 0xff, 0xff, 0xc7, 0xd9, 0xb5, 0x14, 0x00, 0x4b,
      0x12, 0x00, 0x2b, 0x00, 0x00, 0x00]
     (do let f ← Frame.new b; f.intoData) = .ok b) := by decide +kernel

/-- `fcs` -/
def withFcs : List Bytes := [
  [0x40, 0xeb, 0xcd, 0xab, 0xff, 0xff, 0x01, 0x00, 0x01, 0x00, 0x01, 0x00, 0x01, 0x00,
   0x00, 0x3f, 0x32, 0x88, 0x06, 0x1a, 0x11, 0x00, 0x00, 0x00, 0x00, 0x00, 0x19, 0x1c,
   0x01, 0x08, 0x07, 0x80, 0x00, 0x48, 0x08, 0xfc, 0x03, 0x20, 0x03, 0xe8, 0x03, 0x98,
   0x08, 0x90, 0x01, 0xc0, 0x00, 0x60, 0x09, 0xa0, 0x10, 0x10, 0x27, 0x01, 0xc8, 0x00,
   0x0a, 0x1b, 0x01, 0x00, 0x11, 0x00, 0x01, 0x00, 0x00, 0x00, 0x00, 0x07, 0x12, 0x16],
  [0x41, 0xe9, 0xcd, 0xab, 0xff, 0xff, 0x01, 0x00, 0x01, 0x00, 0x01, 0x00, 0x01, 0x00,
   0x7a, 0x3b, 0x3a, 0x1a, 0x9b, 0x01, 0x01, 0x21, 0x00, 0xf0, 0x00, 0x80, 0x08, 0xf0,
   0x00, 0x00, 0xfd, 0x00, 0x00, 0x00, 0x00, 0x00, 0x00, 0x00, 0x02, 0x01, 0x00, 0x01,
   0x00, 0x01, 0x00, 0x01, 0x04, 0x0e, 0x00, 0x08, 0x0c, 0x00, 0x04, 0x00, 0x00, 0x80,
   0x00, 0x01, 0x00, 0x1e, 0x00, 0x3c, 0x08, 0x1e, 0x40, 0x40, 0xff, 0xff, 0xff, 0xff,
   0xff, 0xff, 0xff, 0xff, 0x00, 0x00, 0x00, 0x00, 0xfd, 0x00, 0x00, 0x00, 0x00, 0x00,
   0x00, 0x00, 0x00, 0x00, 0x00, 0x00, 0x00, 0x00, 0x00, 0x00, 0x18, 0xbc],
  [0x02, 0x2e, 0x8d, 0xcd, 0xab, 0x02, 0x00, 0x02, 0x00, 0x02, 0x00, 0x02, 0x00, 0x02,
   0x0f, 0x00, 0x00, 0x7d, 0xd4]]

set_option maxRecDepth 100000 in
example : ∀ b ∈ withFcs, FrameWithFcs.new b = .ok b := by decide +kernel

/-! ## src/tests/mod.rs -/

/-- `let mut buffer = vec![0; r.buffer_len()]; r.emit(&mut DataFrame::new_unchecked(&mut buffer))` -/
def emitted (r : FrameRepr) : Out Bytes := do
  let n ← r.bufferLen
  r.emit (List.replicate n 0)

/-- `emit_imm_ack` -/
example : (do let r ← FrameBuilder.finalize (.newImmAck 1); emitted r) = .ok [0x02, 0x10, 0x01] := by
  decide +kernel

/-- `emit_ack_frame` -/
example : (do
    let f := FrameBuilder.newAck.setSequenceNumber 55
    let f := f.setDstPanId 0xabcd
    let f := f.setDstAddress (.extended ⟨[0x00, 0x02, 0x00, 0x02, 0x00, 0x02, 0x00, 0x02], rfl⟩)
    let f ← f.addHeaderIe (.timeCorrection ⟨.fromUs (-31), true⟩)
    let r ← f.finalize
    emitted r) = .ok [0x02, 0x2e, 0x37, 0xcd, 0xab, 0x02, 0x00, 0x02, 0x00, 0x02, 0x00, 0x02, 0x00,
      0x02, 0x0f, 0xe1, 0x8f] := by decide +kernel

/-- `emit_data_frame` -/
example : (do
    let f := FrameBuilder.newData [0x2b, 0x00, 0x00, 0x00]
    let f := f.setSequenceNumber 1
    let f := f.setDstPanId 0xabcd
    let f := f.setDstAddress .BROADCAST
    let f := f.setSrcPanId 0xabcd
    let f := f.setSrcAddress (.extended ⟨[0x00, 0x12, 0x4b, 0x00, 0x14, 0xb5, 0xd9, 0xc7], rfl⟩)
    let r ← f.finalize
    emitted r) = .ok [0x41, 0xd8, 0x01, 0xcd, 0xab, 0xff, 0xff, 0xc7, 0xd9, 0xb5, 0x14, 0x00, 0x4b,
      0x12, 0x00, 0x2b, 0x00, 0x00, 0x00] := by decide +kernel

/-- `emit_enhanced_beacon` -/
def enhancedBeacon : FrameRepr where
  frameControl := {
    frameType := .beacon
    securityEnabled := false
    framePending := false
    ackRequest := false
    panIdCompression := true
    seqNoSuppression := true
    iePresent := true
    dstMode := .short
    srcMode := .extended
    frameVersion := .v2020 }
  sequenceNumber := none
  addressingFields := some {
    dstPanId := some 0xabcd
    srcPanId := none
    dstAddress := some .BROADCAST
    srcAddress := some (.extended ⟨[0x00, 0x01, 0x00, 0x01, 0x00, 0x01, 0x00, 0x01], rfl⟩) }
  informationElements := some {
    header := []
    payload := [.mlme [
      .tschSynchronization { absoluteSlotNumber := 17, joinMetric := 0 },
      .tschTimeslot (.custom (.new 1 (.fromUs 2200))),
      .channelHopping { hoppingSequenceId := 0 },
      .tschSlotframeAndLink { slotframeDescriptors := [
        { handle := 0, size := 17, links := [
          { timeslot := 0, channelOffset := 1, linkOptions := 0b0110 },
          { timeslot := 1, channelOffset := 2, linkOptions := 0b0111 }] }] }]] }
  payload := none

example : emitted enhancedBeacon = .ok [
    0x40, 0xeb, 0xcd, 0xab, 0xff, 0xff, 0x01, 0x00, 0x01, 0x00, 0x01, 0x00, 0x01, 0x00,
    0x00, 0x3f, 0x37, 0x88, 0x06, 0x1a, 0x11, 0x00, 0x00, 0x00, 0x00, 0x00, 0x19, 0x1c,
    0x01, 0x08, 0x07, 0x80, 0x00, 0x48, 0x08, 0xfc, 0x03, 0x20, 0x03, 0xe8, 0x03, 0x98,
    0x08, 0x90, 0x01, 0xc0, 0x00, 0x60, 0x09, 0xa0, 0x10, 0x10, 0x27, 0x01, 0xc8, 0x00,
    0x0f, 0x1b, 0x01, 0x00, 0x11, 0x00, 0x02, 0x00, 0x00, 0x01, 0x00, 0x06, 0x01, 0x00,
    0x02, 0x00, 0x07] := by decide +kernel

/-- `issue29` -/
example : ∃ b, (do
    let f := FrameBuilder.newData [0x2b, 0x00, 0x00, 0x00]
    let f := f.setSequenceNumber 1
    let f := f.setDstPanId 0xabce
    let f := f.setDstAddress (.short ⟨[0x02, 0x04], rfl⟩)
    let f := f.setSrcPanId 0xabcd
    let f := f.setSrcAddress (.extended ⟨[0x00, 0x12, 0x4b, 0x00, 0x14, 0xb5, 0xd9, 0xc7], rfl⟩)
    let r ← f.finalize
    emitted r) = .ok b := ⟨_, rfl⟩

/-! ## src/tests/parsing/ack.rs -/

/-- `parse_imm_ack` -/
example : (do
    let f ← Ack.new [0x02, 0x10, 0x01]
    let fc ← Ack.frameControl f
    let r ← fields fc
    let s ← Ack.sequenceNumber f
    .ok (r, s)) = .ok (⟨.ack, false, false, false, false, false, false, .absent, .absent, .v2006⟩, 1)
    := by decide

/-- The frame of `parse_enhanced_ack`. -/
def ackFrame : Bytes := [0x02, 0x2e, 0x37, 0xcd, 0xab, 0x02, 0x00, 0x02, 0x00, 0x02, 0x00, 0x02, 0x00,
  0x02, 0x0f, 0xe1, 0x8f]

/-- The addressing fields of a frame. -/
def addresses (a : Out (Option AddressingFields)) : Out AddressingFieldsRepr := do
  let some a ← a | .panic
  .ok {
    dstPanId := ← a.dstPanId
    srcPanId := ← a.srcPanId
    dstAddress := ← a.dstAddress
    srcAddress := ← a.srcAddress }

/-- `parse_enhanced_ack` -/
example : (do
    let f ← EnhancedAck.new ackFrame
    let fc ← EnhancedAck.frameControl f
    let r ← fields fc
    let s ← EnhancedAck.sequenceNumber f
    let a ← addresses (EnhancedAck.addressing f)
    let sec ← EnhancedAck.auxSecHeader f
    .ok (r, s, a, sec)) =
  .ok (⟨.ack, false, false, false, false, false, true, .extended, .absent, .v2020⟩, some 55,
    { dstPanId := some 0xabcd, srcPanId := none,
      dstAddress := some (.extended ⟨[0x00, 0x02, 0x00, 0x02, 0x00, 0x02, 0x00, 0x02], rfl⟩),
      srcAddress := some .absent }, none) := by decide +kernel

example : (do
    let f ← EnhancedAck.new ackFrame
    let some ie ← EnhancedAck.informationElements f | .panic
    let (some h, _) ← headerNext (InformationElements.headerIter ie) | .panic
    let id ← HeaderIe.elementId h
    let c ← HeaderIe.content h
    let tc ← TimeCorrection.new c
    let t ← TimeCorrection.timeCorrection tc
    let n ← TimeCorrection.nack tc
    .ok (id, t, n)) = .ok (HeaderElementId.timeCorrection, Duration.fromUs (-31), true) := by
  decide +kernel

/-! ## src/tests/parsing/data.rs -/

/-- `parse_data_frame` -/
example : (do
    let f ← DataFrame.new [0x41, 0xd8, 0x01, 0xcd, 0xab, 0xff, 0xff, 0xc7, 0xd9, 0xb5, 0x14, 0x00, 0x4b,
      0x12, 0x00, 0x2b, 0x00, 0x00, 0x00]
    let fc ← DataFrame.frameControl f
    let r ← fields fc
    let s ← DataFrame.sequenceNumber f
    let a ← addresses (DataFrame.addressing f)
    let ie ← DataFrame.informationElements f
    let p ← DataFrame.payload f
    .ok (r, s, a, ie, p)) =
  .ok (⟨.data, false, false, false, true, false, false, .short, .extended, .v2006⟩, some 1,
    { dstPanId := some 0xabcd, srcPanId := none, dstAddress := some .BROADCAST,
      srcAddress := some (.extended ⟨[0x00, 0x12, 0x4b, 0x00, 0x14, 0xb5, 0xd9, 0xc7], rfl⟩) }, none,
    some [0x2b, 0x00, 0x00, 0x00]) := by rfl

/-! ## src/tests/parsing/beacon.rs -/

/-- `superframe_specification` -/
example : (do
    let ie ← Macro.new Macro.superframeSpecification [0xff, 0x0f]
    let b ← SuperframeSpecification.beaconOrder ie
    let s ← SuperframeSpecification.superframeOrder ie
    let f ← Macro.getNum Macro.superframeSpecification "final_cap_slot" ie
    .ok (b, s, f)) = .ok (BeaconOrder.onDemand, SuperframeOrder.inactive, 0x0f) := by decide +kernel

example : (do
    let ie ← Macro.new Macro.superframeSpecification [0xff, 0x0f]
    let a ← Macro.get Macro.superframeSpecification "battery_life_extension" ie
    let b ← Macro.get Macro.superframeSpecification "pan_coordinator" ie
    let c ← Macro.get Macro.superframeSpecification "association_permit" ie
    .ok (a, b, c)) = .ok (some (Macro.Val.num 0), some (Macro.Val.num 0),
      some (Macro.Val.num 0)) := by decide +kernel

/-- What `gts_specification` reads of a slot. -/
def slotFields (s : GtsSlot) : Out (Bytes × Nat × Nat × GtsDirection) := do
  let a ← Macro.getRaw Macro.gtsSlot "short_address" s.buffer
  let st ← Macro.getNum Macro.gtsSlot "starting_slot" s.buffer
  let l ← Macro.getNum Macro.gtsSlot "length" s.buffer
  .ok (a, st, l, s.direction)

/-- `gts_specification` -/
example : (do
    let g ← Macro.new Macro.gtsSpecification [0b00000000]
    let p ← Macro.get Macro.gtsSpecification "gts_permit" g
    let n ← GtsSpecification.descriptorCount g
    .ok (p, n)) = .ok (some (.num 0), 0) ∧
  (do
    let g ← Macro.new Macro.gtsSpecification [0b10000000]
    let p ← Macro.get Macro.gtsSpecification "gts_permit" g
    let n ← GtsSpecification.descriptorCount g
    let i ← GtsSpecification.slots g
    let (x, _) ← gtsSlotNext i
    .ok (p, n, x.isNone)) = .ok (some (.num 1), 0, true) ∧
  (do
    let g ← Macro.new Macro.gtsSpecification [0x82, 0x01, 0x34, 0x12, 0x11, 0x78, 0x56, 0x14]
    let p ← Macro.get Macro.gtsSpecification "gts_permit" g
    let n ← GtsSpecification.descriptorCount g
    let i ← GtsSpecification.slots g
    let (some x, i) ← gtsSlotNext i | .panic
    let (some y, i) ← gtsSlotNext i | .panic
    let (z, _) ← gtsSlotNext i
    let x ← slotFields x
    let y ← slotFields y
    .ok (p, n, x, y, z.isNone)) = .ok (some (.num 1), 2, ([0x34, 0x12], 1, 1, .transmit),
      ([0x78, 0x56], 4, 1, .receive), true) := by
  refine ⟨?_, ?_, ?_⟩ <;> rfl

/-- `gts_slot` -/
example : (do
    let s ← GtsSlot.new [0xab, 0xcd, 0b01011010] .transmit
    slotFields s) = .ok ([0xab, 0xcd], 0b1010, 0b0101, .transmit) := by decide +kernel

/-- The frame of `parse_enhanced_beacon` and of the example in src/lib.rs:21-60. -/
def beaconFrame : Bytes := [
  0x40, 0xeb, 0xcd, 0xab, 0xff, 0xff, 0x01, 0x00, 0x01, 0x00, 0x01, 0x00, 0x01, 0x00, 0x00,
  0x3f, 0x11, 0x88, 0x06, 0x1a, 0x0e, 0x00, 0x00, 0x00, 0x00, 0x00, 0x01, 0x1c, 0x00, 0x01,
  0xc8, 0x00, 0x01, 0x1b, 0x00]

/-- `parse_enhanced_beacon` -/
example : (do
    let f ← EnhancedBeacon.new beaconFrame
    let fc ← EnhancedBeacon.frameControl f
    let r ← fields fc
    let s ← EnhancedBeacon.sequenceNumber f
    let a ← addresses (EnhancedBeacon.addressing f)
    let p ← EnhancedBeacon.payload f
    .ok (r, s, a, p)) =
  .ok (⟨.beacon, false, false, false, true, true, true, .short, .extended, .v2020⟩, none,
    { dstPanId := some 0xabcd, srcPanId := none, dstAddress := some .BROADCAST,
      srcAddress := some (.extended ⟨[0x00, 0x01, 0x00, 0x01, 0x00, 0x01, 0x00, 0x01], rfl⟩) },
    none) := by decide +kernel

/-- Its elements: the header termination of length 0, and one MLME element. -/
example : (do
    let f ← EnhancedBeacon.new beaconFrame
    let some ie ← EnhancedBeacon.informationElements f | .panic
    let (some h, i) ← headerNext (InformationElements.headerIter ie) | .panic
    let id ← HeaderIe.elementId h
    let n ← HeaderIe.len h
    let (x, _) ← headerNext i
    let i ← InformationElements.payloadIter ie
    let (some m, i) ← payloadNext i | .panic
    let g ← PayloadIe.groupId m
    let l ← PayloadIe.length m
    let (y, _) ← payloadNext i
    .ok (id, n, x, g, l + 2, y)) =
  .ok (.headerTermination1, 0, none, PayloadGroupId.mlme, 19, none) := by rfl

/-- And the nested elements. -/
example : (do
    let f ← EnhancedBeacon.new beaconFrame
    let some ie ← EnhancedBeacon.informationElements f | .panic
    let i ← InformationElements.payloadIter ie
    let (some m, _) ← payloadNext i | .panic
    let c ← PayloadIe.content m
    let (some n1, i) ← nestedNext (nestedIter c) | .panic
    let (some n2, i) ← nestedNext i | .panic
    let (some n3, i) ← nestedNext i | .panic
    let (some n4, i) ← nestedNext i | .panic
    let (n5, _) ← nestedNext i
    let id1 ← NestedIe.subId n1
    let id2 ← NestedIe.subId n2
    let id3 ← NestedIe.subId n3
    let id4 ← NestedIe.subId n4
    let c1 ← NestedIe.content n1
    let c2 ← NestedIe.content n2
    let c3 ← NestedIe.content n3
    let c4 ← NestedIe.content n4
    let c1 ← TschSynchronization.new c1
    let asn ← TschSynchronization.absoluteSlotNumber c1
    let jm ← TschSynchronization.joinMetric c1
    let c2 ← TschTimeslot.new c2
    let ts ← TschTimeslot.id c2
    let c3 ← ChannelHopping.new c3
    let hs ← ChannelHopping.hoppingSequenceId c3
    let c4 ← TschSlotframeAndLink.new c4
    let ns ← TschSlotframeAndLink.numberOfSlotframes c4
    .ok ([id1, id2, id3, id4], n5, asn, [jm, ts, hs, ns])) =
  .ok ([.short .tschSynchronization, .short .tschTimeslot, .long .channelHopping,
    .short .tschSlotframeAndLink], none, 14, [0, 0, 0, 0]) := by decide +kernel

/-! ## src/time.rs:109-154 and dot15d4/src/time.rs:96-132 -/

/-- `instant_operations`, `duration_operations` -/
example : (Instant.fromUs 100).asUs = 100 ∧
    ((Instant.fromUs 100).sub (.fromUs 50)).asUs = 50 ∧
    ((Instant.fromUs 100).subDur (.fromUs 50)).asUs = 50 ∧
    ((Instant.fromUs 100).addDur (.fromUs 50)).asUs = 150 ∧
    (Duration.fromUs 100).asUs = 100 ∧
    ((Duration.fromUs 100).sub (.fromUs 50)).asUs = 50 ∧
    ((Duration.fromUs 100).mul 2).asUs = 200 ∧
    (Duration.fromUs 100).div 2 = .ok (.fromUs 50) ∧
    ((Duration.fromUs 100).add (.fromUs 50)).asUs = 150 := by decide

end Dot15d4.Upstream
