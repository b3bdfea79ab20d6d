import Verif.Model.Fuzz

/-!
# The generators of the fuzz target `repr` (feature `fuzz`)

The `Arbitrary` implementations, as sets of possible results: `int_in_range` may return any number of
its range, and an unstructured primitive value may be any value.  That the bytes of the fuzzer may run
out (`arbitrary::Error::NotEnoughData`) is not modelled.  The two places that return
`arbitrary::Error::IncorrectFormat` are told apart.
-/

namespace Dot15d4.Fuzz

/-- What a generator returns. -/
inductive Res (α : Type) where
  | done (a : α)
  /-- `IncorrectFormat`: invalid link options (repr/ie/nested.rs:352) -/
  | format
  /-- `IncorrectFormat`: `push` onto a full `Vec` (repr/ie/mod.rs:34, 40, repr/ie/payloads.rs:30,
  repr/ie/nested.rs:216, 294) -/
  | full

/-- A generator: its possible results. -/
def Gen (α : Type) : Type := Res α → Prop

/-- `Ok(a)`. -/
def Gen.pure {α : Type} (a : α) : Gen α := fun r => r = .done a

/-- Sequencing with `?`. -/
def Gen.bind {α β : Type} (g : Gen α) (k : α → Gen β) : Gen β := fun r =>
  (∃ a, g (.done a) ∧ k a r) ∨ (g .format ∧ r = .format) ∨ (g .full ∧ r = .full)

instance : Monad Gen where
  pure := Gen.pure
  bind := Gen.bind

/-- `Err(IncorrectFormat)` for invalid link options. -/
def Gen.badFormat {α : Type} : Gen α := fun r => r = .format

/-- `Err(IncorrectFormat)` of a failing `push`. -/
def Gen.overflow {α : Type} : Gen α := fun r => r = .full

/-- `u.int_in_range(lo..=hi)?`. -/
def intInRange (lo hi : Nat) : Gen Nat := fun r => ∃ n, lo ≤ n ∧ n ≤ hi ∧ r = .done n

/-- A derived implementation made of primitive values only: any value of the type.  Used for integers,
`bool`, byte slices, and `Address` (addressing.rs:9), `Duration` (time.rs:25), `FrameControlRepr` with its
enumerations (repr/frame_control.rs:6, frame_control.rs:8, 45, addressing.rs:161), `AddressingFieldsRepr`
(repr/addressing.rs:7), `HeaderInformationElementRepr` with `TimeCorrectionRepr` (repr/ie/headers.rs:8,
83), `TschSynchronizationRepr` (repr/ie/nested.rs:118) and `ChannelHoppingRepr` (repr/ie/nested.rs:438). -/
def anyOf (α : Type) : Gen α := fun r => ∃ a, r = .done a

/-- The derived implementation of `Option`. -/
def option {α : Type} (g : Gen α) : Gen (Option α) := do
  let b ← anyOf Bool
  if b then do
    let a ← g
    pure (some a)
  else pure none

/-- `for _ in 0..n { v.push(g?).map_err(..)?; }` with a `Vec` of capacity `cap`. -/
def pushMany {α : Type} (cap : Nat) (g : Gen α) : Nat → List α → Gen (List α)
  | 0, l => pure l
  | n + 1, l => do
    let x ← g
    if l.length < cap then pushMany cap g n (l ++ [x]) else Gen.overflow

/-- `TschLinkOptionRepr::arbitrary` (repr/ie/nested.rs:347-355); `from_bits` refuses undefined bits. -/
def linkOption : Gen Byte := do
  let b ← anyOf Byte
  if b &&& 0xe0#8 = 0 then pure b else Gen.badFormat

/-- `LinkInformationRepr::arbitrary`, derived (repr/ie/nested.rs:307-316). -/
def linkInformation : Gen LinkInformationRepr := do
  let timeslot ← anyOf (BitVec 16)
  let channelOffset ← anyOf (BitVec 16)
  let linkOptions ← linkOption
  pure { timeslot, channelOffset, linkOptions }

/-- `SlotframeDescriptorRepr::arbitrary` (repr/ie/nested.rs:285-303). -/
def slotframe : Gen SlotframeDescriptorRepr := do
  let n ← intInRange 0 4
  let links ← pushMany 4 linkInformation n []
  let handle ← intInRange 0 8
  let size ← intInRange 0 255
  pure { handle := BitVec.ofNat 8 handle, size := BitVec.ofNat 16 size, links }

/-- `TschSlotframeAndLinkRepr::arbitrary` (repr/ie/nested.rs:207-222). -/
def slotframes : Gen TschSlotframeAndLinkRepr := do
  let n ← intInRange 0 2
  let l ← pushMany 3 slotframe n []
  pure { slotframeDescriptors := l }

/-- `Duration::from_us` of a small number. -/
def micros (n : Nat) : Duration := .fromUs (BitVec.ofNat 64 n)

/-- `TschTimeslotRepr::arbitrary` (repr/ie/nested.rs:406-435). -/
def timeslot : Gen TschTimeslotRepr := do
  let k ← intInRange 0 1
  if k = 0 then pure (.default 0)
  else do
    let id ← intInRange 1 255
    let t := TschTimeslotTimings.new (BitVec.ofNat 8 id) (micros 0)
    let guard ← intInRange 2000 2400
    let offset ← intInRange 2100 2140
    let x ← intInRange 1750 1850
    let t := t.setCcaOffset (micros x)
    let t := t.setCca (micros 128)
    let t := t.setTxOffset (micros offset)
    let t := t.setRxOffset ((micros offset).sub (.fromUs ((micros guard).asUs.sdiv 2)))
    let x ← intInRange 780 820
    let t := t.setRxAckDelay (micros x)
    let x ← intInRange 980 1020
    let t := t.setTxAckDelay (micros x)
    let t := t.setRxWait (micros guard)
    let x ← intInRange 380 420
    let t := t.setAckWait (micros x)
    let x ← intInRange 190 194
    let t := t.setRxTx (micros x)
    let x ← intInRange 2350 2450
    let t := t.setMaxAck (micros x)
    let x ← intInRange 4200 4300
    let t := t.setMaxTx (micros x)
    let x ← intInRange 0 10
    let t := t.setTimeslotLength (micros (10000 + 1000 * x))
    pure (.custom t)

/-- `NestedInformationElementRepr::arbitrary`, derived (repr/ie/nested.rs:13-24): one of the four
variants. -/
def nested : Gen NestedIeRepr := do
  let k ← intInRange 0 3
  match k with
  | 0 => do
    let r ← anyOf TschSynchronizationRepr
    pure (.tschSynchronization r)
  | 1 => do
    let r ← timeslot
    pure (.tschTimeslot r)
  | 2 => do
    let r ← slotframes
    pure (.tschSlotframeAndLink r)
  | _ => do
    let r ← anyOf ChannelHoppingRepr
    pure (.channelHopping r)

/-- `PayloadInformationElementRepr::arbitrary` (repr/ie/payloads.rs:18-37). -/
def payloadElement : Gen PayloadIeRepr := do
  let k ← intInRange 0 1
  if k = 0 then pure .payloadTermination
  else do
    let n ← intInRange 0 15
    let l ← pushMany 16 nested n []
    pure (.mlme l)

/-- `InformationElementsRepr::arbitrary` (repr/ie/mod.rs:24-47). -/
def elements : Gen InformationElementsRepr := do
  let n ← intInRange 0 15
  let header ← pushMany 16 (anyOf HeaderIeRepr) n []
  let m ← intInRange 0 15
  let payload ← pushMany 16 payloadElement m []
  pure { header, payload }

/-- `FrameRepr::arbitrary`, derived (repr/mod.rs:18-31). -/
def frame : Gen FrameRepr := do
  let frameControl ← anyOf FrameControlRepr
  let sequenceNumber ← anyOf (Option Byte)
  let addressingFields ← anyOf (Option AddressingFieldsRepr)
  let informationElements ← option elements
  let payload ← anyOf (Option Bytes)
  pure { frameControl, sequenceNumber, addressingFields, informationElements, payload }

end Dot15d4.Fuzz
