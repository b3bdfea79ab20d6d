import Verif.Spec.Ordered

/-!
# Frames that arrive
-/

namespace Dot15d4.Spec
open Dot15d4 Props Csma

/-- The frames received by the receive task of a device, in order.  (What arrives while the transmit task
waits for an acknowledgement is not among them.) -/
def framesHeard (D : Device) (t : List (Ev CallAns)) : List Bytes :=
  t.filterMap fun
    | .ret (.rx, .radioReceive _) r => if r.1 = true then frameInside D.format r.2 else none
    | _ => none

/-- These octets are a frame the device passes on. -/
def FrameFor (D : Device) (m : Bytes) : Prop :=
  ∃ h : Header, h.bytes = m ∧ h.WellFormed ∧ Acceptable m ∧ PassedOn D h

/-- None of the packages makes the device await an acknowledgement. -/
def AwaitsNone (D : Device) (packages : List FrameBuffer) : Prop :=
  ∀ p ∈ packages, ∀ h, Holds D.format p.buffer.1 h → ¬ WantsAck D.config h

end Dot15d4.Spec
