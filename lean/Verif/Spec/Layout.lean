import Verif.Spec.Builder
import Verif.Spec.IeWire

/-!
# The octets of a frame (IEEE 802.15.4-2020, 7.2)

The frame the standard prescribes for what the caller of the builder asked: a function from the
calls to octets, independent of the model.
-/

namespace Dot15d4.Spec
open Dot15d4

/-- Frame types (table 7-1). -/
def typeNumber : FrameType → Nat
  | .beacon => 0 | .data => 1 | .ack => 2 | .macCommand => 3 | .unknown => 4
  | .multipurpose => 5 | .fragmentOrFrak => 6 | .extended => 7
/-- Frame versions (table 7-4). -/
def versionNumber : FrameVersion → Nat
  | .v2003 => 0 | .v2006 => 1 | .v2020 => 2 | .unknown => 3
/-- Addressing modes (table 7-3). -/
def modeNumber : AddressingMode → Nat
  | .absent => 0 | .unknown => 1 | .short => 2 | .extended => 3

/-- The frame control field (figure 7-2) as a number, bit 0 first on the air. -/
def fcWord (r : FrameControlRepr) : Nat :=
  typeNumber r.frameType + 2 ^ 3 * r.securityEnabled.toNat + 2 ^ 4 * r.framePending.toNat +
  2 ^ 5 * r.ackRequest.toNat + 2 ^ 6 * r.panIdCompression.toNat +
  2 ^ 8 * r.seqNoSuppression.toNat + 2 ^ 9 * r.iePresent.toNat + 2 ^ 10 * modeNumber r.dstMode +
  2 ^ 12 * versionNumber r.frameVersion + 2 ^ 14 * modeNumber r.srcMode

/-- The destination PAN id sent: the one given; before 2020 there is none without an address. -/
def sentDstPan (s : Start) (cs : List Call) : Option (BitVec 16) :=
  if wantedVersion s cs = .v2020 ∨ (lastOf Call.dst? cs).isSome then lastOf Call.dstPan? cs else none

/-- The source PAN id sent: the one given, with a source address; elided if it is the destination's. -/
def sentSrcPan (cs : List Call) : Option (BitVec 16) :=
  if (lastOf Call.src? cs).isNone then none
  else if (lastOf Call.dst? cs).isSome ∧ lastOf Call.srcPan? cs = lastOf Call.dstPan? cs then none
  else lastOf Call.srcPan? cs

/-- The PAN id compression bit.  Before 2020 (7.2.1.1.5 of the 2006 edition): both addresses are
present and the source PAN id is elided.  Since 2020 (table 7-2): see the rows. -/
def compressionBit (v : FrameVersion) (dst src : Option Address) (dp sp : Option (BitVec 16)) : Bool :=
  match v, dst, src with
  | .v2020, none, none => dp.isSome
  | .v2020, some _, none => dp.isNone
  | .v2020, none, some _ => sp.isNone
  | .v2020, some (.extended _), some (.extended _) => dp.isNone
  | .v2020, some _, some _ => sp.isNone
  | _, some _, some _ => sp.isNone
  | _, _, _ => false

/-- The frame control field for what was asked: no security, nothing pending, no acknowledgment
requested. -/
def sentFc (s : Start) (cs : List Call) : FrameControlRepr where
  frameType := s.type
  securityEnabled := false
  framePending := false
  ackRequest := false
  panIdCompression := compressionBit (wantedVersion s cs) (lastOf Call.dst? cs) (lastOf Call.src? cs)
    (sentDstPan s cs) (sentSrcPan cs)
  seqNoSuppression := (wantedSeq s cs).isNone
  iePresent := wantsElements cs
  dstMode := modeOf (lastOf Call.dst? cs)
  frameVersion := wantedVersion s cs
  srcMode := modeOf (lastOf Call.src? cs)

/-- The octets of the frame: frame control, sequence number, addressing fields, information
elements, payload (figure 7-1). -/
def frameOctets (s : Start) (cs : List Call) : Bytes :=
  wire16 (fcWord (sentFc s cs)) ++ (wantedSeq s cs).toList ++
  addressing (sentDstPan s cs) ((lastOf Call.dst? cs).getD .absent) (sentSrcPan cs)
    ((lastOf Call.src? cs).getD .absent) ++
  encodeElements ⟨wantedHeader cs, wantedElements cs⟩ (wantedPayload s cs).isSome ++
  (wantedPayload s cs).getD []

end Dot15d4.Spec
