import Verif.Model.Frames

/-!
# High-level representations (dot15d4-frame/src/repr/)

`heapless::Vec<T, N>` is a list; pushing past `N` is where the code checks for it.  `emit` on
`&mut [u8]` returns the new contents.  The cargo feature `panic` is off (the default; see ReprPanic.lean), so
unsupported elements give `Err`.
-/

namespace Dot15d4
open Out

/-- `for x in list { x.emit(&mut buffer[offset..][..x.buffer_len()]); offset += x.buffer_len(); }`
(repr/ie/mod.rs:146-149, 161-166; payloads.rs:89-95; nested.rs:196-203, 276-281). -/
def emitAll {α : Type} (len : α → Nat) (emit : α → Bytes → Out Bytes) :
    List α → Nat → Bytes → Out (Bytes × Nat)
  | [], o, b => .ok (b, o)
  | x :: l, o, b => do
    let b ← modifyAt b o (len x) (emit x)
    emitAll len emit l (o + len x) b

/-- `.iter().map(|d| d.buffer_len()).sum()`, and the equivalent `for` loops. -/
def sumBy {α : Type} (len : α → Nat) : List α → Nat
  | [] => 0
  | x :: l => len x + sumBy len l

/-! ## Header information elements (repr/ie/headers.rs) -/

/-- repr/ie/headers.rs:82-89 -/
structure TimeCorrectionRepr where
  timeCorrection : Duration
  nack : Bool
  deriving DecidableEq, Repr

namespace TimeCorrectionRepr
/-- `parse` (repr/ie/headers.rs:93-98). -/
def parse (tc : TimeCorrection) : Out TimeCorrectionRepr := do
  let timeCorrection ← tc.timeCorrection
  let nack ← tc.nack
  .ok { timeCorrection, nack }
/-- `buffer_len` (repr/ie/headers.rs:102-104). -/
def bufferLen (_ : TimeCorrectionRepr) : Nat := 2
/-- `emit` (repr/ie/headers.rs:107-110). -/
def emit (r : TimeCorrectionRepr) (b : Bytes) : Out Bytes := do
  let b ← TimeCorrection.setTimeCorrection b r.timeCorrection
  TimeCorrection.setNack b r.nack
end TimeCorrectionRepr

/-- repr/ie/headers.rs:9-16 -/
inductive HeaderIeRepr where
  | timeCorrection (tc : TimeCorrectionRepr)
  | headerTermination1
  | headerTermination2
  deriving DecidableEq, Repr

namespace HeaderIeRepr
/-- `parse` (repr/ie/headers.rs:20-36). -/
def parse (ie : HeaderIe) : Out HeaderIeRepr := do
  match ← ie.elementId with
  | .timeCorrection => do
    let c ← HeaderIe.content ie
    let tc ← TimeCorrection.new c
    let r ← TimeCorrectionRepr.parse tc
    .ok (.timeCorrection r)
  | .headerTermination1 => .ok .headerTermination1
  | .headerTermination2 => .ok .headerTermination2
  | _ => .err
/-- `inner_len` (repr/ie/headers.rs:45-51). -/
def innerLen : HeaderIeRepr → Nat
  | .timeCorrection tc => tc.bufferLen
  | .headerTermination1 => 0
  | .headerTermination2 => 0
/-- `buffer_len` (repr/ie/headers.rs:39-41). -/
def bufferLen (r : HeaderIeRepr) : Nat := 2 + r.innerLen
/-- `From<&HeaderInformationElementRepr> for HeaderElementId` (repr/ie/headers.rs:70-79). -/
def elementId : HeaderIeRepr → HeaderElementId
  | .timeCorrection _ => .timeCorrection
  | .headerTermination1 => .headerTermination1
  | .headerTermination2 => .headerTermination2
/-- The content part of `emit` (repr/ie/headers.rs:60-66). -/
def emitContent (r : HeaderIeRepr) (c : Bytes) : Out Bytes :=
  match r with
  | .timeCorrection tc => tc.emit c
  | .headerTermination1 => .ok c
  | .headerTermination2 => .ok c
/-- `emit` (repr/ie/headers.rs:54-67).  `content_mut` is `&mut data[2..]`; taking it for the
terminations too is harmless because `set_length` has already needed two bytes. -/
def emit (r : HeaderIeRepr) (b : Bytes) : Out Bytes := do
  let b := HeaderIe.clear b
  let b ← HeaderIe.setLength b (BitVec.ofNat 16 r.innerLen)
  let b ← HeaderIe.setElementId b r.elementId
  modifyFrom b 2 r.emitContent
end HeaderIeRepr

/-! ## Nested information elements (repr/ie/nested.rs) -/

/-- repr/ie/nested.rs:119-124 -/
structure TschSynchronizationRepr where
  absoluteSlotNumber : BitVec 64
  joinMetric : Byte
  deriving DecidableEq, Repr

namespace TschSynchronizationRepr
/-- `parse` (repr/ie/nested.rs:128-133). -/
def parse (ie : TschSynchronization) : Out TschSynchronizationRepr := do
  let absoluteSlotNumber ← ie.absoluteSlotNumber
  let joinMetric ← ie.joinMetric
  .ok { absoluteSlotNumber, joinMetric }
/-- `buffer_len` (repr/ie/nested.rs:137-139). -/
def bufferLen (_ : TschSynchronizationRepr) : Nat := 6
/-- `emit` (repr/ie/nested.rs:142-145). -/
def emit (r : TschSynchronizationRepr) (b : Bytes) : Out Bytes := do
  let b ← TschSynchronization.setAbsoluteSlotNumber b r.absoluteSlotNumber
  TschSynchronization.setJoinMetric b r.joinMetric
end TschSynchronizationRepr

/-- repr/ie/nested.rs:309-316; the `TschLinkOption` bit set is its byte. -/
structure LinkInformationRepr where
  timeslot : BitVec 16
  channelOffset : BitVec 16
  linkOptions : Byte
  deriving DecidableEq, Repr

namespace LinkInformationRepr
/-- `parse` (repr/ie/nested.rs:320-326). -/
def parse (ie : LinkInformation) : Out LinkInformationRepr := do
  let timeslot ← ie.timeslot
  let channelOffset ← ie.channelOffset
  let linkOptions ← ie.linkOptions
  .ok { timeslot, channelOffset, linkOptions }
/-- `buffer_len` (repr/ie/nested.rs:329-331). -/
def bufferLen (_ : LinkInformationRepr) : Nat := 5
/-- `emit` (repr/ie/nested.rs:334-338). -/
def emit (r : LinkInformationRepr) (b : Bytes) : Out Bytes := do
  let b ← LinkInformation.setTimeslot b r.timeslot
  let b ← LinkInformation.setChannelOffset b r.channelOffset
  LinkInformation.setLinkOptions b r.linkOptions
end LinkInformationRepr

/-- repr/ie/nested.rs:227-236; `links` is a `Vec<_, 4>`. -/
structure SlotframeDescriptorRepr where
  handle : Byte
  size : BitVec 16
  links : List LinkInformationRepr
  deriving DecidableEq, Repr

namespace SlotframeDescriptorRepr
/-- `parse` (repr/ie/nested.rs:241-262). -/
def parse (ie : SlotframeDescriptor) : Out SlotframeDescriptorRepr := do
  let it ← ie.linkIter
  let links ← forLoop linkNext (pushOrErr 4 LinkInformationRepr.parse) (it.data.length + 2) it []
  let handle ← ie.handle
  let size ← ie.size
  .ok { handle, size, links }
/-- `buffer_len` (repr/ie/nested.rs:266-268). -/
def bufferLen (r : SlotframeDescriptorRepr) : Nat := 4 + r.links.length * 5
/-- `emit` (repr/ie/nested.rs:271-282); `content_mut` is `&mut data[4..]`. -/
def emit (r : SlotframeDescriptorRepr) (b : Bytes) : Out Bytes := do
  let b ← SlotframeDescriptor.setHandle b r.handle
  let b ← SlotframeDescriptor.setSize b r.size
  let b ← SlotframeDescriptor.setNumberOfLinks b (BitVec.ofNat 8 r.links.length)
  modifyFrom b 4 fun c => do
    let p ← emitAll LinkInformationRepr.bufferLen LinkInformationRepr.emit r.links 0 c
    .ok p.1
end SlotframeDescriptorRepr

/-- repr/ie/nested.rs:151-155; a `Vec<_, 3>`. -/
structure TschSlotframeAndLinkRepr where
  slotframeDescriptors : List SlotframeDescriptorRepr
  deriving DecidableEq, Repr

namespace TschSlotframeAndLinkRepr
/-- `parse` (repr/ie/nested.rs:159-178). -/
def parse (ie : TschSlotframeAndLink) : Out TschSlotframeAndLinkRepr := do
  let it ← ie.descriptorIter
  let slotframeDescriptors ←
    forLoop slotframeNext (pushOrErr 3 SlotframeDescriptorRepr.parse) (ie.length + 1) it []
  .ok { slotframeDescriptors }
/-- `buffer_len` (repr/ie/nested.rs:182-188). -/
def bufferLen (r : TschSlotframeAndLinkRepr) : Nat :=
  1 + sumBy SlotframeDescriptorRepr.bufferLen r.slotframeDescriptors
/-- `emit` (repr/ie/nested.rs:191-204); `content_mut` is `&mut data[1..]`. -/
def emit (r : TschSlotframeAndLinkRepr) (b : Bytes) : Out Bytes := do
  let b ← TschSlotframeAndLink.setNumberOfSlotframes b
    (BitVec.ofNat 8 r.slotframeDescriptors.length)
  modifyFrom b 1 fun c => do
    let p ← emitAll SlotframeDescriptorRepr.bufferLen SlotframeDescriptorRepr.emit
      r.slotframeDescriptors 0 c
    .ok p.1
end TschSlotframeAndLinkRepr

/-- repr/ie/nested.rs:359-364 -/
inductive TschTimeslotRepr where
  | default (id : Byte)
  | custom (t : TschTimeslotTimings)
  deriving DecidableEq, Repr

namespace TschTimeslotRepr
/-- `parse` (repr/ie/nested.rs:368-374). -/
def parse (ie : TschTimeslot) : Out TschTimeslotRepr :=
  if ie.hasTimeslotTimings then do
    let t ← ie.timeslotTimings
    .ok (.custom t)
  else do
    let i ← ie.id
    .ok (.default i)
/-- `buffer_len` (repr/ie/nested.rs:378-391). -/
def bufferLen : TschTimeslotRepr → Nat
  | .default _ => 1
  | .custom t =>
    if decide ((t.maxTx.asUs.setWidth 32).toNat > 65535) ||
      decide ((t.timeslotLength.asUs.setWidth 32).toNat > 65535) then 27 else 25
/-- `emit` (repr/ie/nested.rs:394-403). -/
def emit (r : TschTimeslotRepr) (b : Bytes) : Out Bytes :=
  match r with
  | .default i => TschTimeslot.setTimeslotId b i
  | .custom t => TschTimeslot.setTimeslotTimings b t
end TschTimeslotRepr

/-- repr/ie/nested.rs:439-442 -/
structure ChannelHoppingRepr where
  hoppingSequenceId : Byte
  deriving DecidableEq, Repr

namespace ChannelHoppingRepr
/-- `parse` (repr/ie/nested.rs:446-450). -/
def parse (ie : ChannelHopping) : Out ChannelHoppingRepr := do
  let i ← ie.hoppingSequenceId
  .ok ⟨i⟩
/-- `buffer_len` (repr/ie/nested.rs:454-456). -/
def bufferLen (_ : ChannelHoppingRepr) : Nat := 1
/-- `emit` (repr/ie/nested.rs:459-461). -/
def emit (r : ChannelHoppingRepr) (b : Bytes) : Out Bytes :=
  ChannelHopping.setHoppingSequenceId b r.hoppingSequenceId
end ChannelHoppingRepr

/-- repr/ie/nested.rs:15-24 -/
inductive NestedIeRepr where
  | tschSynchronization (r : TschSynchronizationRepr)
  | tschTimeslot (r : TschTimeslotRepr)
  | tschSlotframeAndLink (r : TschSlotframeAndLinkRepr)
  | channelHopping (r : ChannelHoppingRepr)
  deriving DecidableEq, Repr

namespace NestedIeRepr
/-- `parse` (repr/ie/nested.rs:28-53). -/
def parse (ie : NestedIe) : Out NestedIeRepr := do
  match ← ie.subId with
  | .short .tschSynchronization => do
    let c ← NestedIe.content ie
    let x ← TschSynchronization.new c
    let r ← TschSynchronizationRepr.parse x
    .ok (.tschSynchronization r)
  | .short .tschTimeslot => do
    let c ← NestedIe.content ie
    let x ← TschTimeslot.new c
    let r ← TschTimeslotRepr.parse x
    .ok (.tschTimeslot r)
  | .short .tschSlotframeAndLink => do
    let c ← NestedIe.content ie
    let x ← TschSlotframeAndLink.new c
    let r ← TschSlotframeAndLinkRepr.parse x
    .ok (.tschSlotframeAndLink r)
  | .long .channelHopping => do
    let c ← NestedIe.content ie
    let x ← ChannelHopping.new c
    let r ← ChannelHoppingRepr.parse x
    .ok (.channelHopping r)
  | _ => .err
/-- `inner_len` (repr/ie/nested.rs:62-69). -/
def innerLen : NestedIeRepr → Nat
  | .tschSynchronization r => r.bufferLen
  | .tschTimeslot r => r.bufferLen
  | .tschSlotframeAndLink r => r.bufferLen
  | .channelHopping r => r.bufferLen
/-- `buffer_len` (repr/ie/nested.rs:56-58). -/
def bufferLen (r : NestedIeRepr) : Nat := 2 + r.innerLen
/-- `From<&NestedInformationElementRepr> for NestedSubId` (repr/ie/nested.rs:96-113). -/
def subId : NestedIeRepr → NestedSubId
  | .tschSynchronization _ => .short .tschSynchronization
  | .tschTimeslot _ => .short .tschTimeslot
  | .tschSlotframeAndLink _ => .short .tschSlotframeAndLink
  | .channelHopping _ => .long .channelHopping
/-- The content part of `emit` (repr/ie/nested.rs:79-92). -/
def emitContent (r : NestedIeRepr) (c : Bytes) : Out Bytes :=
  match r with
  | .tschSynchronization r => r.emit c
  | .tschTimeslot r => r.emit c
  | .tschSlotframeAndLink r => r.emit c
  | .channelHopping r => r.emit c
/-- `emit` (repr/ie/nested.rs:72-93). -/
def emit (r : NestedIeRepr) (b : Bytes) : Out Bytes := do
  let b := NestedIe.clear b
  let b ← NestedIe.setLength b (BitVec.ofNat 16 r.innerLen) r.subId
  let b ← NestedIe.setSubId b r.subId
  modifyFrom b 2 r.emitContent
end NestedIeRepr

/-! ## Payload information elements (repr/ie/payloads.rs) -/

/-- repr/ie/payloads.rs:11-16; the list is a `Vec<_, 16>`. -/
inductive PayloadIeRepr where
  | mlme (l : List NestedIeRepr)
  | payloadTermination
  deriving DecidableEq, Repr

namespace PayloadIeRepr
/-- `parse` (repr/ie/payloads.rs:40-58). -/
def parse (ie : PayloadIe) : Out PayloadIeRepr := do
  match ← ie.groupId with
  | .mlme => do
    let it ← ie.nestedIter
    let l ← forLoop nestedNext (pushOrBreak 16 NestedIeRepr.parse) (it.data.length + 1) it []
    .ok (.mlme l)
  | _ => .err
/-- `inner_len` (repr/ie/payloads.rs:67-80). -/
def innerLen : PayloadIeRepr → Nat
  | .mlme l => sumBy NestedIeRepr.bufferLen l
  | .payloadTermination => 0
/-- `buffer_len` (repr/ie/payloads.rs:61-63). -/
def bufferLen (r : PayloadIeRepr) : Nat := 2 + r.innerLen
/-- `From<&PayloadInformationElementRepr> for PayloadGroupId` (repr/ie/payloads.rs:104-112). -/
def groupId : PayloadIeRepr → PayloadGroupId
  | .mlme _ => .mlme
  | .payloadTermination => .payloadTermination
/-- The content part of `emit` (repr/ie/payloads.rs:88-100): `PayloadTermination => todo!()`. -/
def emitContent (r : PayloadIeRepr) (c : Bytes) : Out Bytes :=
  match r with
  | .mlme l => do
    let p ← emitAll NestedIeRepr.bufferLen NestedIeRepr.emit l 0 c
    .ok p.1
  | .payloadTermination => .panic
/-- `emit` (repr/ie/payloads.rs:83-101). -/
def emit (r : PayloadIeRepr) (b : Bytes) : Out Bytes := do
  let b := PayloadIe.clear b
  let b ← PayloadIe.setLength b (BitVec.ofNat 16 r.innerLen)
  let b ← PayloadIe.setGroupId b r.groupId
  modifyFrom b 2 r.emitContent
end PayloadIeRepr

/-! ## Information elements (repr/ie/mod.rs) -/

/-- repr/ie/mod.rs:17-22; both lists are `Vec<_, 16>`. -/
structure InformationElementsRepr where
  header : List HeaderIeRepr := []
  payload : List PayloadIeRepr := []
  deriving DecidableEq, Repr

namespace InformationElementsRepr
/-- `parse` (repr/ie/mod.rs:51-77). -/
def parse (ie : InformationElements) : Out InformationElementsRepr := do
  let header ← forLoop headerNext (pushOrBreak 16 HeaderIeRepr.parse) (ie.length + 1)
    ie.headerIter []
  let it ← ie.payloadIter
  let payload ← forLoop payloadNext (pushOrBreak 16 PayloadIeRepr.parse) (ie.length + 1) it []
  .ok { header, payload }

/-- `header_terminations` (repr/ie/mod.rs:82-109): (HT1, HT2, PT). -/
def terminations (r : InformationElementsRepr) (containsPayload : Bool) : Bool × Bool × Bool :=
  match !r.header.isEmpty, !r.payload.isEmpty, containsPayload with
  | false, false, false => (false, false, false)
  | true, false, false => (false, false, false)
  | false, true, false => (true, false, false)
  | true, true, false => (true, false, false)
  | false, false, true => (false, false, false)
  | true, false, true => (false, true, false)
  | false, true, true => (true, false, true)
  | true, true, true => (true, false, true)

/-- `buffer_len` (repr/ie/mod.rs:112-138). -/
def bufferLen (r : InformationElementsRepr) (containsPayload : Bool) : Nat :=
  let t := r.terminations containsPayload
  sumBy HeaderIeRepr.bufferLen r.header
    + (if t.1 then HeaderIeRepr.headerTermination1.bufferLen else 0)
    + (if t.2.1 then HeaderIeRepr.headerTermination1.bufferLen else 0)
    + sumBy PayloadIeRepr.bufferLen r.payload
    + (if t.2.2 then PayloadIeRepr.payloadTermination.bufferLen else 0)

/-- One optional termination of `emit` (repr/ie/mod.rs:151-159, 168-172). -/
def emitIf (c : Bool) (emit : Bytes → Out Bytes) (p : Bytes × Nat) : Out (Bytes × Nat) :=
  if c then do
    let b ← modifyAt p.1 p.2 2 emit
    .ok (b, p.2 + 2)
  else .ok p

/-- `emit` (repr/ie/mod.rs:141-173). -/
def emit (r : InformationElementsRepr) (b : Bytes) (containsPayload : Bool) : Out Bytes := do
  let t := r.terminations containsPayload
  let p ← emitAll HeaderIeRepr.bufferLen HeaderIeRepr.emit r.header 0 b
  let p ← emitIf t.1 HeaderIeRepr.headerTermination1.emit p
  let p ← emitIf t.2.1 HeaderIeRepr.headerTermination2.emit p
  let p ← emitAll PayloadIeRepr.bufferLen PayloadIeRepr.emit r.payload p.2 p.1
  let p ← emitIf t.2.2 PayloadIeRepr.payloadTermination.emit p
  .ok p.1
end InformationElementsRepr

/-- `DataFrame::set_information_elements` (frames/data.rs:223-236). -/
def DataFrame.setInformationElements (b : Bytes) (ie : InformationElementsRepr)
    (containsPayload : Bool) : Out Bytes := do
  let o ← DataFrame.addrEnd b
  modifyFrom b o fun s => ie.emit s containsPayload

/-! ## Frames (repr/mod.rs) -/

/-- repr/mod.rs:20-31 -/
structure FrameRepr where
  frameControl : FrameControlRepr
  sequenceNumber : Option Byte
  addressingFields : Option AddressingFieldsRepr
  informationElements : Option InformationElementsRepr
  payload : Option Bytes
  deriving DecidableEq, Repr

/-- `.map(f)` on an option, with `f` possibly failing; with `.transpose()?` the error is
propagated (repr/mod.rs:37-43). -/
def mapOpt {α β : Type} (f : α → Out β) : Option α → Out (Option β)
  | none => .ok none
  | some a => do
    let b ← f a
    .ok (some b)

namespace FrameRepr
/-- `parse` (repr/mod.rs:35-52). -/
def parse (b : DataFrame) : Out FrameRepr := do
  let fc ← DataFrame.frameControl b
  let frameControl ← FrameControlRepr.parse fc
  let af ← DataFrame.addressing b
  let addressingFields ← mapOpt AddressingFieldsRepr.parse af
  let ie ← DataFrame.informationElements b
  let informationElements ← mapOpt InformationElementsRepr.parse ie
  let sequenceNumber ← DataFrame.sequenceNumber b
  let payload ← DataFrame.payload b
  .ok { frameControl, sequenceNumber, addressingFields, informationElements, payload }

/-- `validate` (repr/mod.rs:55-80). -/
def validate (r : FrameRepr) : Out Unit :=
  if r.frameControl.frameType = .data ∧ r.addressingFields.isNone then .err
  else if r.frameControl.frameType = .data ∧ r.payload.isNone then .err
  else do
    let _ ← mapOpt (fun af => AddressingFieldsRepr.validate af r.frameControl) r.addressingFields
    if r.payload = some [] then .err else .ok ()

/-- `buffer_len` (repr/mod.rs:83-103). -/
def bufferLen (r : FrameRepr) : Out Nat := do
  let a ← mapOpt (fun af => AddressingFieldsRepr.bufferLen af r.frameControl) r.addressingFields
  .ok (2 + (if r.sequenceNumber.isSome then 1 else 0) + a.getD 0
    + (match r.informationElements with
       | some ie => ie.bufferLen r.payload.isSome
       | none => 0)
    + (match r.payload with
       | some p => p.length
       | none => 0))

/-- `if let Some(x) = opt { frame.set_x(x) }`. -/
def ifSome {α : Type} (f : Bytes → α → Out Bytes) (o : Option α) (b : Bytes) : Out Bytes :=
  match o with
  | some a => f b a
  | none => .ok b

/-- `emit` (repr/mod.rs:106-124). -/
def emit (r : FrameRepr) (b : Bytes) : Out Bytes := do
  let b ← DataFrame.setFrameControl b r.frameControl
  let b ← ifSome DataFrame.setSequenceNumber r.sequenceNumber b
  let b ← ifSome DataFrame.setAddressingFields r.addressingFields b
  let b ← ifSome (fun b ie => DataFrame.setInformationElements b ie r.payload.isSome)
    r.informationElements b
  ifSome DataFrame.setPayload r.payload b
end FrameRepr

/-! ## The builder (repr/builder.rs) -/

/-- The frame held by a `FrameBuilder<'p, T>` (repr/builder.rs:11-14). -/
abbrev FrameBuilder := FrameRepr

namespace FrameBuilder
/-- The frame control all constructors share apart from the three fields given
(repr/builder.rs:21-32, 46-57, 73-84, 100-111, 127-138). -/
def fc0 (t : FrameType) (v : FrameVersion) (sup : Bool) : FrameControlRepr where
  frameType := t
  securityEnabled := false
  framePending := false
  ackRequest := false
  panIdCompression := false
  seqNoSuppression := sup
  iePresent := false
  dstMode := .absent
  srcMode := .absent
  frameVersion := v

/-- `new_imm_ack` (repr/builder.rs:18-40). -/
def newImmAck (n : Byte) : FrameBuilder := ⟨fc0 .ack .v2006 false, some n, none, none, none⟩
/-- `new_ack` (repr/builder.rs:43-65). -/
def newAck : FrameBuilder := ⟨fc0 .ack .v2020 true, none, none, none, none⟩
/-- `new_beacon` (repr/builder.rs:70-92). -/
def newBeacon : FrameBuilder := ⟨fc0 .beacon .v2006 true, none, none, none, none⟩
/-- `new_enhanced_beacon` (repr/builder.rs:97-119). -/
def newEnhancedBeacon : FrameBuilder := ⟨fc0 .beacon .v2020 true, none, none, none, none⟩
/-- `new_data` (repr/builder.rs:124-146). -/
def newData (p : Bytes) : FrameBuilder := ⟨fc0 .data .v2006 true, none, none, none, some p⟩

/-- `set_sequence_number` (repr/builder.rs:154-158). -/
def setSequenceNumber (f : FrameBuilder) (n : Byte) : FrameBuilder :=
  { f with
    sequenceNumber := some n
    frameControl := { f.frameControl with seqNoSuppression := false } }
/-- `addressing_fields.get_or_insert_with(default)` followed by a field update. -/
def updAddr (f : FrameBuilder) (g : AddressingFieldsRepr → AddressingFieldsRepr) : FrameBuilder :=
  { f with addressingFields := some (g (f.addressingFields.getD {})) }
/-- `set_dst_pan_id` (repr/builder.rs:161-168). -/
def setDstPanId (f : FrameBuilder) (p : BitVec 16) : FrameBuilder :=
  updAddr f fun a => { a with dstPanId := some p }
/-- `set_src_pan_id` (repr/builder.rs:171-177). -/
def setSrcPanId (f : FrameBuilder) (p : BitVec 16) : FrameBuilder :=
  updAddr f fun a => { a with srcPanId := some p }
/-- `set_dst_address` (repr/builder.rs:183-190). -/
def setDstAddress (f : FrameBuilder) (x : Address) : FrameBuilder :=
  updAddr { f with frameControl := { f.frameControl with dstMode := x.mode } }
    fun a => { a with dstAddress := some x }
/-- `set_src_address` (repr/builder.rs:196-203). -/
def setSrcAddress (f : FrameBuilder) (x : Address) : FrameBuilder :=
  updAddr { f with frameControl := { f.frameControl with srcMode := x.mode } }
    fun a => { a with srcAddress := some x }
/-- `vec.push(x).unwrap()` on a `Vec<_, 16>`. -/
def push16 {α : Type} (l : List α) (x : α) : Out (List α) :=
  if l.length < 16 then .ok (l ++ [x]) else .panic
/-- `add_header_information_element` (repr/builder.rs:210-222). -/
def addHeaderIe (f : FrameBuilder) (x : HeaderIeRepr) : Out FrameBuilder := do
  let ie := f.informationElements.getD {}
  let l ← push16 ie.header x
  .ok { f with
    frameControl := { f.frameControl with iePresent := true, frameVersion := .v2020 }
    informationElements := some { ie with header := l } }
/-- `add_payload_information_element` (repr/builder.rs:229-241). -/
def addPayloadIe (f : FrameBuilder) (x : PayloadIeRepr) : Out FrameBuilder := do
  let ie := f.informationElements.getD {}
  let l ← push16 ie.payload x
  .ok { f with
    frameControl := { f.frameControl with iePresent := true, frameVersion := .v2020 }
    informationElements := some { ie with payload := l } }
/-- `set_payload` (repr/builder.rs:244-247). -/
def setPayload (f : FrameBuilder) (p : Bytes) : FrameBuilder := { f with payload := some p }

/-- The arm shared by three lines of the compression table (repr/builder.rs:274-294): compress
and drop the source PAN id iff the two are equal. -/
def sameOrNot (a : AddressingFieldsRepr) (dst src : BitVec 16) : Bool × AddressingFieldsRepr :=
  if dst = src then (true, { a with srcPanId := none }) else (false, a)

/-- The 2020 compression table (repr/builder.rs:261-299). -/
def compress2020 (a : AddressingFieldsRepr) : Out (Bool × AddressingFieldsRepr) :=
  match a.dstAddress, a.srcAddress, a.dstPanId, a.srcPanId with
  | none, none, none, none => .ok (false, a)
  | none, none, some _, none => .ok (true, a)
  | some _, none, some _, none => .ok (false, a)
  | none, some _, none, some _ => .ok (false, a)
  | none, some _, none, none => .ok (true, a)
  | some (.extended _), some (.extended _), some _, none => .ok (false, a)
  | some (.extended _), some (.extended _), none, none => .ok (true, a)
  | some (.short _), some (.short _), some dst, some src => .ok (sameOrNot a dst src)
  | some (.short _), some (.extended _), some dst, some src => .ok (sameOrNot a dst src)
  | some (.extended _), some (.short _), some dst, some src => .ok (sameOrNot a dst src)
  | some (.short _), some (.extended _), some _, none => .ok (true, a)
  | some (.extended _), some (.short _), some _, none => .ok (true, a)
  | some (.short _), some (.short _), some _, none => .ok (true, a)
  | _, _, _, _ => .err

/-- The table for older versions (repr/builder.rs:324-345), with the current compression bit. -/
def compress2006 (c : Bool) (a : AddressingFieldsRepr) : Out (Bool × AddressingFieldsRepr) :=
  match a.dstAddress, a.srcAddress, a.dstPanId, a.srcPanId with
  | some _, some _, some dst, some src =>
    if dst = src then .ok (true, { a with srcPanId := none }) else .ok (c, a)
  | some _, none, some _, _ => .ok (false, { a with srcPanId := none })
  | none, some _, _, some _ => .ok (false, { a with dstPanId := none })
  | _, _, _, _ => .err

/-- Store the result of a table. -/
def withAddr (f : FrameBuilder) (p : Bool × AddressingFieldsRepr) : FrameRepr :=
  { f with
    frameControl := { f.frameControl with panIdCompression := p.1 }
    addressingFields := some p.2 }

/-- `finalize` (repr/builder.rs:254-349). -/
def finalize (f : FrameBuilder) : Out FrameRepr :=
  if f.frameControl.frameVersion = .v2020 then
    match f.addressingFields with
    | none => .err
    | some a => do
      let p ← compress2020 a
      .ok (withAddr f p)
  else if f.frameControl.frameType = .ack then
    if f.sequenceNumber.isNone then .err
    else .ok { f with addressingFields := none }
  else
    match f.addressingFields with
    | none => .err
    | some a => do
      let p ← compress2006 f.frameControl.panIdCompression a
      .ok (withAddr f p)
end FrameBuilder

end Dot15d4
