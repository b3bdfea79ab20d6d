import Verif.Model.Repr
import Verif.Spec.Tsch

/-!
# Wire format of information elements (IEEE 802.15.4-2020, 7.4), independent of the writers

Only the types `…Repr` of the model (the API's data types) are used.
-/

namespace Dot15d4.Spec
open Dot15d4

/-- A 16 bit number, least significant octet first. -/
def le16 (n : Nat) : Bytes := [BitVec.ofNat 8 n, BitVec.ofNat 8 (n / 256)]
/-- A 24 bit number, least significant octet first. -/
def le24 (n : Nat) : Bytes := [BitVec.ofNat 8 n, BitVec.ofNat 8 (n / 256), BitVec.ofNat 8 (n / 65536)]

/-- Header element (7.4.2.1): length in bits 0-6, id in bits 7-14, type bit 15 = 0. -/
def headerElement (id : Nat) (c : Bytes) : Bytes := le16 (c.length + 128 * id) ++ c
/-- Payload element (7.4.3.1): length in bits 0-10, group in bits 11-14, type bit 15 = 1. -/
def payloadElement (group : Nat) (c : Bytes) : Bytes := le16 (c.length + 2048 * group + 32768) ++ c
/-- Nested element of type short (7.4.4.1): length in bits 0-7, id in bits 8-14, bit 15 = 0. -/
def shortElement (id : Nat) (c : Bytes) : Bytes := le16 (c.length + 256 * id) ++ c
/-- Nested element of type long (7.4.4.1): length in bits 0-10, id in bits 11-14, bit 15 = 1. -/
def longElement (id : Nat) (c : Bytes) : Bytes := le16 (c.length + 2048 * id + 32768) ++ c

/-- Time correction (7.4.2.7): twelve bit two's complement microseconds, bit 15 = nack. -/
def timeCorrection (r : TimeCorrectionRepr) : Bytes :=
  le16 ((r.timeCorrection.asUs.toInt % 4096).toNat + if r.nack then 32768 else 0)

/-- The header elements of the crate. -/
def encodeHeader : HeaderIeRepr → Bytes
  | .timeCorrection r => headerElement 0x1e (timeCorrection r)
  | .headerTermination1 => headerElement 0x7e []
  | .headerTermination2 => headerElement 0x7f []

/-- TSCH synchronization (7.4.4.2): 40 bit slot number, join metric. -/
def encodeSync (r : TschSynchronizationRepr) : Bytes :=
  let n := r.absoluteSlotNumber.toNat
  le16 n ++ le16 (n / 2 ^ 16) ++ [BitVec.ofNat 8 (n / 2 ^ 32)] ++ [r.joinMetric]

/-- The microseconds of a nonnegative duration. -/
def us (d : Duration) : Nat := d.asUs.toInt.toNat

/-- TSCH timeslot (7.4.4.4). -/
def encodeTimings (t : TschTimeslotTimings) : Bytes :=
  [t.id] ++ (([t.ccaOffset, t.cca, t.txOffset, t.rxOffset, t.rxAckDelay, t.txAckDelay, t.rxWait,
    t.ackWait, t.rxTx, t.maxAck].map fun d => le16 (us d)).flatten) ++
  if us t.maxTx ≤ 65535 ∧ us t.timeslotLength ≤ 65535 then
    le16 (us t.maxTx) ++ le16 (us t.timeslotLength)
  else le24 (us t.maxTx) ++ le24 (us t.timeslotLength)

/-- The default template is its id alone. -/
def encodeTimeslot : TschTimeslotRepr → Bytes
  | .default i => [i]
  | .custom t => encodeTimings t

/-- The link described by a representation. -/
def ofLinkRepr (r : LinkInformationRepr) : Link := ⟨r.timeslot, r.channelOffset, r.linkOptions⟩
/-- The slotframe described by a representation. -/
def ofSlotframeRepr (r : SlotframeDescriptorRepr) : Slotframe :=
  ⟨r.handle, r.size, r.links.map ofLinkRepr⟩

/-- The nested elements of the crate. -/
def encodeNested : NestedIeRepr → Bytes
  | .tschSynchronization r => shortElement 0x1a (encodeSync r)
  | .tschTimeslot r => shortElement 0x1c (encodeTimeslot r)
  | .tschSlotframeAndLink r =>
    shortElement 0x1b (encodeSlotframes (r.slotframeDescriptors.map ofSlotframeRepr))
  | .channelHopping r => longElement 0x09 [r.hoppingSequenceId]

/-- The payload elements of the crate. -/
def encodePayload : PayloadIeRepr → Bytes
  | .mlme l => payloadElement 1 (l.map encodeNested).flatten
  | .payloadTermination => payloadElement 0x0f []

/-- 7.4.1: the header list is closed by header termination 1 when a payload list follows, by
header termination 2 when only a payload follows; the payload list is closed by a payload
termination when a payload follows. -/
def encodeElements (r : InformationElementsRepr) (framePayload : Bool) : Bytes :=
  (r.header.map encodeHeader).flatten ++
  (if r.payload ≠ [] then encodeHeader .headerTermination1
   else if r.header ≠ [] ∧ framePayload then encodeHeader .headerTermination2 else []) ++
  (r.payload.map encodePayload).flatten ++
  (if r.payload ≠ [] ∧ framePayload then encodePayload .payloadTermination else [])

/-! ## Values that have an encoding -/

/-- A duration fits an unsigned field of `n` bits. -/
def DurFits (n : Nat) (t : Duration) : Prop := 0 ≤ t.asUs.toInt ∧ t.asUs.toInt < 2 ^ n
instance (n t) : Decidable (DurFits n t) := by unfold DurFits; infer_instance

/-- A header element the user may list: a time correction in range (the terminations are added by
the code). -/
def HeaderOk : HeaderIeRepr → Prop
  | .timeCorrection r => -2048 ≤ r.timeCorrection.asUs.toInt ∧ r.timeCorrection.asUs.toInt ≤ 2047
  | _ => False

/-- A timeslot with an encoding: the default template, or nonzero id and fitting timings. -/
def TimeslotOk : TschTimeslotRepr → Prop
  | .default i => i = 0
  | .custom t => t.id ≠ 0 ∧ DurFits 16 t.ccaOffset ∧ DurFits 16 t.cca ∧ DurFits 16 t.txOffset ∧
      DurFits 16 t.rxOffset ∧ DurFits 16 t.rxAckDelay ∧ DurFits 16 t.txAckDelay ∧
      DurFits 16 t.rxWait ∧ DurFits 16 t.ackWait ∧ DurFits 16 t.rxTx ∧ DurFits 16 t.maxAck ∧
      DurFits 24 t.maxTx ∧ DurFits 24 t.timeslotLength

/-- At most four links (the capacity of the `Vec`), reserved option bits zero, at least one link
(without links the code cannot read the element, see C23). -/
def SlotframeOk (r : SlotframeDescriptorRepr) : Prop :=
  1 ≤ r.links.length ∧ r.links.length ≤ 4 ∧ ∀ k ∈ r.links, k.linkOptions.toNat < 32

/-- A nested element with an encoding. -/
def NestedOk : NestedIeRepr → Prop
  | .tschSynchronization r => r.absoluteSlotNumber.toNat < 2 ^ 40
  | .tschTimeslot r => TimeslotOk r
  | .tschSlotframeAndLink r => r.slotframeDescriptors.length ≤ 3 ∧
      ∀ s ∈ r.slotframeDescriptors, SlotframeOk s
  | .channelHopping _ => True

/-- An MLME element of at most 16 nested elements whose total length fits the ten bits the code
reads. -/
def PayloadOk : PayloadIeRepr → Prop
  | .mlme l => l.length ≤ 16 ∧ (∀ x ∈ l, NestedOk x) ∧ ((l.map encodeNested).flatten).length < 1024
  | .payloadTermination => False

/-- At most 16 elements per list (the capacities of the `Vec`s), all encodable. -/
def ElementsOk (r : InformationElementsRepr) : Prop :=
  r.header.length ≤ 16 ∧ r.payload.length ≤ 16 ∧ (∀ x ∈ r.header, HeaderOk x) ∧
  ∀ x ∈ r.payload, PayloadOk x

instance : DecidablePred HeaderOk := fun x => by cases x <;> unfold HeaderOk <;> infer_instance
instance : DecidablePred TimeslotOk := fun x => by cases x <;> unfold TimeslotOk <;> infer_instance
instance : DecidablePred SlotframeOk := fun x => by unfold SlotframeOk; infer_instance
instance : DecidablePred NestedOk := fun x => by cases x <;> unfold NestedOk <;> infer_instance
instance : DecidablePred PayloadOk := fun x => by cases x <;> unfold PayloadOk <;> infer_instance
instance : DecidablePred ElementsOk := fun x => by unfold ElementsOk; infer_instance

end Dot15d4.Spec
