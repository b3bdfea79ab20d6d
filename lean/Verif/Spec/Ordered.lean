import Verif.Spec.Copies

/-!
# The order in which packages are handed over
-/

namespace Dot15d4.Spec
open Dot15d4 Props Csma

/-- The frame in a buffer. -/
def frameInside (F : RadioFormat) (b : Arr 128) : Option Bytes :=
  (F.frameLen b.1).map fun n => F.data b.1 n

/-- The packages a device was given, in order. -/
def packagesGiven (t : List (Ev CallAns)) : List FrameBuffer :=
  t.filterMap fun | .ret (.tx, .driverTransmit) p => some p | _ => none

/-- The frames a device has handed to its upper layer, in order. -/
def framesHanded (D : Device) (t : List (Ev CallAns)) : List Bytes :=
  t.filterMap fun | .start (_, .driverReceived fb) => frameInside D.format fb.buffer | _ => none

/-- The frames received by the radio of a device, in order. -/
def framesReceived (D : Device) (t : List (Ev CallAns)) : List Bytes :=
  t.filterMap fun
    | .ret (_, .radioReceive _) r => if r.1 = true then frameInside D.format r.2 else none
    | _ => none

/-- The frames given that were transmitted over a clear channel, in order. -/
def framesOnAir (D : Device) (t : List (Ev CallAns)) : List Bytes :=
  (onAir (t.filterMap txEvent)).filterMap (frameInside D.format)

/-- What the device makes of a package: a frame, or nothing that could be received as one. -/
def MakesOf (D : Device) (p : FrameBuffer) (f : Option Bytes) : Prop :=
  ∃ b seq complaints, Prepared D p.buffer b seq complaints ∧ frameInside D.format b = f

open Classical in
/-- A frame as often as it may be transmitted. -/
noncomputable def upTo (D : Device) : Option Bytes → List Bytes
  | some m => List.replicate (if RequestsAck m then D.consts.maxFrameRetries else 1) m
  | none => []

end Dot15d4.Spec
