import Verif.Spec.CsmaTransmit

/-!
# A network of devices
-/

namespace Dot15d4.Spec
open Dot15d4 Props Csma

/-- The frame in a buffer, as a radio format presents it. -/
def FrameIn (F : RadioFormat) (b : Arr 128) (m : Bytes) : Prop :=
  ∃ n, F.frameLen b.1 = some n ∧ F.data b.1 n = m

/-- With this call a device begins to transmit the frame `m`: the transmit task has it in a buffer of
the upper layer, the receive task wrote an acknowledgement, of three octets, with a token. -/
def Transmits (D : Device) : Ev CallAns → Bytes → Prop
  | .start (.tx, .radioTransmit b _), m => FrameIn D.format b m
  | .start (.rx, .radioTransmit b _), m => (b.1.drop D.format.tokenOff).take 3 = m
  | _, _ => False

/-- With this a reception of the frame `m` by the radio of a device ends. -/
def Receives (D : Device) : Ev CallAns → Bytes → Prop
  | .ret (_, .radioReceive _) r, m => r.1 = true ∧ FrameIn D.format r.2 m
  | _, _ => False

/-- What one of the devices does. -/
def ofDevice {ι : Type} [DecidableEq ι] (i : ι) (g : List (ι × Ev CallAns)) : List (Ev CallAns) :=
  g.filterMap fun x => if x.1 = i then some x.2 else none

/-- A history of a network: every device runs, and a frame is received only after another device
began to transmit it.  Frames may be lost, delayed, received several times, and overtake each other;
and radios may receive noise, as long as it is no frame. -/
structure Network {ι : Type} [DecidableEq ι] (D : ι → Device) (g : List (ι × Ev CallAns)) : Prop where
  run : ∀ i, ∃ o, Exec (runDevice (D i)) (ofDevice i g) o
  medium : ∀ pre i e post m, g = pre ++ (i, e) :: post → Receives (D i) e m →
    ∃ j e', j ≠ i ∧ (j, e') ∈ pre ∧ Transmits (D j) e' m

/-- A package holds a frame with the sequence number `s`. -/
def Numbered (D : Device) (s : Byte) (p : FrameBuffer) : Prop :=
  ∃ h, Holds D.format p.buffer.1 h ∧ h.seq = some s

/-- `h` has the octets of what the device makes of the frame `h0` of a package: the ack request bit may
be set, and the PAN ids are replaced by those of the device if it is configured so.  Everything else is
as it was. -/
def MadeFrom (D : Device) (h0 h : Header) : Prop :=
  ∃ o0 o1 want, decodeFc o0 o1 = { h0.fc with ackRequest := h0.fc.ackRequest || want } ∧
    fcBit o0 o1 7 = fcBit h0.o0 h0.o1 7 ∧
    h.bytes = (({ h0 with o0 := o0, o1 := o1 } : Header).overwrite D).bytes

/-- In the history `g`, device `S` was given a package with the frame `h0`, after that transmitted `h`,
which it made of it, and after that `R` received `h`, in the buffer `rb`. -/
def Conveyed {ι : Type} (D : ι → Device) (g : List (ι × Ev CallAns)) (S R : ι) (h0 h : Header)
    (rb : Arr 128) : Prop :=
  ∃ (p : FrameBuffer) (b : Arr 128) (c1 : TxConfig) (c2 : RxConfig) (g0 g1 g2 g3 : _),
    Holds (D S).format p.buffer.1 h0 ∧ MadeFrom (D S) h0 h ∧ FrameIn (D S).format b h.bytes ∧
    Holds (D R).format rb.1 h ∧
    g = g0 ++ (S, .ret (.tx, .driverTransmit) p) :: (g1 ++
      (S, .start (.tx, .radioTransmit b c1)) :: (g2 ++
      (R, .ret (.rx, .radioReceive c2) (true, rb)) :: g3))

end Dot15d4.Spec
