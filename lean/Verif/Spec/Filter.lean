import Verif.Spec.Csma

/-!
# Which received frames the standard has a device accept

IEEE 802.15.4, 6.7.2 (third level filtering), without macGroupRxMode.
-/

namespace Dot15d4.Spec
open Dot15d4 Props Csma

/-- The attributes of a device the rules are about: macPanId, its two addresses, whether it is the
PAN coordinator, macImplicitBroadcast. -/
structure MacAttributes where
  panId : BitVec 16
  short : Arr 2
  extended : Arr 8
  coordinator : Bool
  implicitBroadcast : Bool

/-- The source PAN of a frame: the source PAN id, or the destination's if that is compressed away. -/
def Addressing.sourcePan (a : Addressing) : Option (BitVec 16) := a.srcPan <|> a.dstPan

/-- The rules:
* no reserved frame type and no reserved frame version;
* a destination PAN id is macPanId or the broadcast PAN id;
* a short destination address is the device's or broadcast; an extended one is the device's;
* the source PAN of a beacon is macPanId, unless that is the broadcast PAN id;
* a data frame or command that only has a source is accepted only by the PAN coordinator of that PAN
  (or, with macImplicitBroadcast, by everyone);
* a frame without any address counts as broadcast if macImplicitBroadcast is set. -/
def StdFilter (m : MacAttributes) (h : Header) : Prop :=
  h.fc.frameType ≠ .unknown ∧ h.fc.frameVersion ≠ .unknown ∧
  match h.addressing with
  | none => m.implicitBroadcast = true
  | some a =>
    (∀ p, a.dstPan = some p → p = m.panId ∨ p = 0xffff) ∧
    (∀ x, a.dst = .short x → x = m.short ∨ x = ⟨[0xff, 0xff], rfl⟩) ∧
    (∀ x, a.dst = .extended x → x = m.extended) ∧
    (h.fc.frameType = .beacon → m.panId = 0xffff ∨ a.sourcePan = some m.panId) ∧
    (a.dst = .absent → a.src ≠ .absent → h.fc.frameType = .data ∨ h.fc.frameType = .macCommand →
      m.coordinator = true ∧ a.sourcePan = some m.panId ∨ m.implicitBroadcast = true)

end Dot15d4.Spec
