import Verif.Model.Repr

/-!
# Which frames the fuzz target `repr` is given (C83)

Written without the generators: how many elements of which kind, and the ranges of the numbers.
-/

namespace Dot15d4.Spec

/-- A duration between two numbers of microseconds. -/
def Micros (lo hi : Int) (d : Duration) : Prop := lo ≤ d.asUs.toInt ∧ d.asUs.toInt ≤ hi

/-- The timeslots: the default template, or timings around those of the standard for 2.4 GHz, with the
receiver listening from half of its waiting time before the transmission on. -/
def TimeslotMade : TschTimeslotRepr → Prop
  | .default i => i = 0
  | .custom t => t.id ≠ 0 ∧ Micros 1750 1850 t.ccaOffset ∧ Micros 128 128 t.cca ∧
      Micros 2100 2140 t.txOffset ∧ Micros 780 820 t.rxAckDelay ∧ Micros 980 1020 t.txAckDelay ∧
      Micros 2000 2400 t.rxWait ∧ Micros 380 420 t.ackWait ∧ Micros 190 194 t.rxTx ∧
      Micros 2350 2450 t.maxAck ∧ Micros 4200 4300 t.maxTx ∧
      t.rxOffset.asUs.toInt = t.txOffset.asUs.toInt - t.rxWait.asUs.toInt / 2 ∧
      Micros 10000 20000 t.timeslotLength ∧ t.timeslotLength.asUs.toInt % 1000 = 0

/-- The slotframes: up to four links, with defined options only. -/
def SlotframeMade (s : SlotframeDescriptorRepr) : Prop :=
  s.handle.toNat ≤ 8 ∧ s.size.toNat ≤ 255 ∧ s.links.length ≤ 4 ∧
  ∀ k ∈ s.links, k.linkOptions.toNat < 32

/-- The nested elements: any synchronization and channel hopping element, some timeslots, and up to
two slotframes. -/
def NestedMade : NestedIeRepr → Prop
  | .tschSynchronization _ => True
  | .tschTimeslot t => TimeslotMade t
  | .tschSlotframeAndLink r => r.slotframeDescriptors.length ≤ 2 ∧
      ∀ s ∈ r.slotframeDescriptors, SlotframeMade s
  | .channelHopping _ => True

/-- The payload elements: the payload termination, or up to 15 nested elements. -/
def PayloadMade : PayloadIeRepr → Prop
  | .payloadTermination => True
  | .mlme l => l.length ≤ 15 ∧ ∀ x ∈ l, NestedMade x

/-- The frames: everything is arbitrary except for the elements, at most 15 of each kind. -/
def FrameMade (f : FrameRepr) : Prop :=
  ∀ r, f.informationElements = some r →
    r.header.length ≤ 15 ∧ r.payload.length ≤ 15 ∧ ∀ x ∈ r.payload, PayloadMade x

end Dot15d4.Spec
