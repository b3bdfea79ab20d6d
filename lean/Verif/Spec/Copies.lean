import Verif.Spec.Traffic
import Mathlib.Algebra.BigOperators.Group.Finset.Basic
import Mathlib.Data.Fintype.Basic

/-!
# How often a frame is handed over
-/

namespace Dot15d4.Spec
open Dot15d4 Props Csma

/-- The device makes the frame `m` of this package. -/
def Becomes (D : Device) (p : FrameBuffer) (m : Bytes) : Prop :=
  ∃ b seq complaints, Prepared D p.buffer b seq complaints ∧ FrameIn D.format b m

/-- The device was given a package of which it makes the frame `m`. -/
def Given (D : Device) : Ev CallAns → Bytes → Prop
  | .ret (.tx, .driverTransmit) p, m => Becomes D p m
  | _, _ => False

/-- The device hands a buffer with the frame `m` to the upper layer. -/
def HandsOver (D : Device) : Ev CallAns → Bytes → Prop
  | .start (_, .driverReceived fb), m => FrameIn D.format fb.buffer m
  | _, _ => False

/-- The buffers the transmit task transmitted, or is transmitting: all but those the radio refused to
transmit because the channel was not clear. -/
def onAir : List TxEvent → List (Arr 128)
  | .attempt _ _ :: .result false :: l => onAir l
  | .attempt b _ :: l => b :: onAir l
  | _ :: l => onAir l
  | [] => []

open Classical in
/-- The medium makes no copies of the frames of upper layers, which are longer than an acknowledgement:
no device receives one more often than it was transmitted by others over a clear channel. -/
def Singly {ι : Type} [DecidableEq ι] [Fintype ι] (D : ι → Device) (g : List (ι × Ev CallAns)) : Prop :=
  ∀ i m, 3 < m.length → (ofDevice i g).countP (fun e => decide (Receives (D i) e m)) ≤
    ∑ j ∈ Finset.univ.erase i,
      (onAir ((ofDevice j g).filterMap txEvent)).countP fun b => decide (FrameIn (D j).format b m)

/-- The octets are those of a frame that requests an acknowledgement. -/
def RequestsAck (m : Bytes) : Prop :=
  ∃ o0 o1 l, m = o0 :: o1 :: l ∧ (decodeFc o0 o1).ackRequest = true

end Dot15d4.Spec
