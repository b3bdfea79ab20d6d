import Verif.Model.Repr

/-!
# `FrameRepr::parse` with the cargo feature `panic` (dot15d4-frame/Cargo.toml:30-34)

The functions of `Model/Repr.lean` that contain `#[cfg(feature = "panic")]`, or call one that does,
compiled with the feature.  The others are the same with and without it.
-/

namespace Dot15d4.PanicFeature
open Out

/-- `if vec.push(parse(&a)?).is_err() { panic!(..); return Err(Error) }`
(repr/ie/nested.rs:162-173, 244-255). -/
def pushOrPanic {α β : Type} (cap : Nat) (parse : α → Out β) (a : α) (acc : List β) :
    Out (Bool × List β) := do
  let b ← parse a
  if acc.length < cap then .ok (false, acc ++ [b]) else .panic

/-- `HeaderInformationElementRepr::parse` (repr/ie/headers.rs:20-36). -/
def headerParse (ie : HeaderIe) : Out HeaderIeRepr := do
  match ← ie.elementId with
  | .timeCorrection => do
    let c ← HeaderIe.content ie
    let tc ← TimeCorrection.new c
    let r ← TimeCorrectionRepr.parse tc
    .ok (.timeCorrection r)
  | .headerTermination1 => .ok .headerTermination1
  | .headerTermination2 => .ok .headerTermination2
  | _ => .panic

/-- `SlotframeDescriptorRepr::parse` (repr/ie/nested.rs:241-262). -/
def slotframeParse (ie : SlotframeDescriptor) : Out SlotframeDescriptorRepr := do
  let it ← ie.linkIter
  let links ← forLoop linkNext (pushOrPanic 4 LinkInformationRepr.parse) (it.data.length + 2) it []
  let handle ← ie.handle
  let size ← ie.size
  .ok { handle, size, links }

/-- `TschSlotframeAndLinkRepr::parse` (repr/ie/nested.rs:159-178). -/
def slotframesParse (ie : TschSlotframeAndLink) : Out TschSlotframeAndLinkRepr := do
  let it ← ie.descriptorIter
  let slotframeDescriptors ← forLoop slotframeNext (pushOrPanic 3 slotframeParse) (ie.length + 1) it []
  .ok { slotframeDescriptors }

/-- `NestedInformationElementRepr::parse` (repr/ie/nested.rs:28-53). -/
def nestedParse (ie : NestedIe) : Out NestedIeRepr := do
  match ← ie.subId with
  | .short .tschSynchronization => do
    let c ← NestedIe.content ie
    let x ← TschSynchronization.new c
    let r ← TschSynchronizationRepr.parse x
    .ok (.tschSynchronization r)
  | .short .tschTimeslot => do
    let c ← NestedIe.content ie
    let x ← TschTimeslot.new c
    let r ← TschTimeslotRepr.parse x
    .ok (.tschTimeslot r)
  | .short .tschSlotframeAndLink => do
    let c ← NestedIe.content ie
    let x ← TschSlotframeAndLink.new c
    let r ← slotframesParse x
    .ok (.tschSlotframeAndLink r)
  | .long .channelHopping => do
    let c ← NestedIe.content ie
    let x ← ChannelHopping.new c
    let r ← ChannelHoppingRepr.parse x
    .ok (.channelHopping r)
  | _ => .panic

/-- `PayloadInformationElementRepr::parse` (repr/ie/payloads.rs:40-58): the unsupported groups give
`Err` with the feature, too. -/
def payloadParse (ie : PayloadIe) : Out PayloadIeRepr := do
  match ← ie.groupId with
  | .mlme => do
    let it ← ie.nestedIter
    let l ← forLoop nestedNext (pushOrBreak 16 nestedParse) (it.data.length + 1) it []
    .ok (.mlme l)
  | _ => .err

/-- `InformationElementsRepr::parse` (repr/ie/mod.rs:51-77). -/
def elementsParse (ie : InformationElements) : Out InformationElementsRepr := do
  let header ← forLoop headerNext (pushOrBreak 16 headerParse) (ie.length + 1) ie.headerIter []
  let it ← ie.payloadIter
  let payload ← forLoop payloadNext (pushOrBreak 16 payloadParse) (ie.length + 1) it []
  .ok { header, payload }

/-- `FrameRepr::parse` (repr/mod.rs:35-52). -/
def frameParse (b : DataFrame) : Out FrameRepr := do
  let fc ← DataFrame.frameControl b
  let frameControl ← FrameControlRepr.parse fc
  let af ← DataFrame.addressing b
  let addressingFields ← mapOpt AddressingFieldsRepr.parse af
  let ie ← DataFrame.informationElements b
  let informationElements ← mapOpt elementsParse ie
  let sequenceNumber ← DataFrame.sequenceNumber b
  let payload ← DataFrame.payload b
  .ok { frameControl, sequenceNumber, addressingFields, informationElements, payload }

end Dot15d4.PanicFeature
