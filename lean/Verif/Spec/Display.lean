import Verif.Model.Display
import Verif.Spec.FrameControl
import Verif.Spec.Ie
import Verif.Spec.Tsch

/-!
# What the printed text of a frame part should show

Written from the octets of the part (its id and its content), not from the reader functions.
-/

namespace Dot15d4.Spec
open Dot15d4 Display

/-- Lines `label: value`, indented by two. -/
def table (l : List (String × Piece)) : Text := (l.map fun p => [.lit p.1, p.2, .lit "\n"]).flatten

/-- A flag is shown as 0 or 1. -/
def flag (b : Bool) : Piece := .number b.toNat

/-- The frame control field, every field of figure 7-2. -/
def frameControlText (r : FrameControlRepr) : Text :=
  .lit "Frame Control\n" :: table [("  type: ", .frameType r.frameType),
    ("  security enabled: ", flag r.securityEnabled), ("  frame pending: ", flag r.framePending),
    ("  ack request: ", flag r.ackRequest), ("  pan id compression: ", flag r.panIdCompression),
    ("  sequence number suppression: ", flag r.seqNoSuppression),
    ("  information elements present: ", flag r.iePresent),
    ("  dst addressing mode: ", .mode r.dstMode), ("  src addressing mode: ", .mode r.srcMode),
    ("  frame version: ", .version r.frameVersion)]

/-- The addressing fields that are there, in the order of the frame. -/
def addressingText (dp : Option (BitVec 16)) (d : Address) (sp : Option (BitVec 16)) (s : Address) : Text :=
  .lit "Addressing Fields\n" :: table ((dp.map fun v => ("  dst pan id: ", .hex v)).toList ++
    [("  dst address: ", .address d)] ++ (sp.map fun v => ("  src pan id: ", .hex v)).toList ++
    [("  src address: ", .address s)])

/-- The content of an element nothing more is known about. -/
def rawText (id : Piece) (c : Bytes) : Text := [id, .lit "(", .bytes c, .lit ")"]

/-- Twelve bit two's complement microseconds. -/
def signed12 (b0 b1 : Byte) : Duration :=
  let v : Nat := b0.toNat + 256 * (b1.toNat % 16)
  .fromUs (BitVec.ofInt 64 (if v < 2048 then v else (v : Int) - 4096))

/-- A header element with this id and content. -/
def headerText (id : HeaderElementId) (c : Bytes) : Text :=
  match id, c with
  | .headerTermination1, _ => [.headerId .headerTermination1]
  | .headerTermination2, _ => [.headerId .headerTermination2]
  | .simplifiedSuperframeSpecification, c => [.headerId .simplifiedSuperframeSpecification, .lit " ",
      .superframe (if 4 ≤ c.length then some c else none)]
  | .timeCorrection, b0 :: b1 :: _ => [.lit "Time Correction", .lit " ", .duration (signed12 b0 b1),
      .lit ", nack: ", .number (b1.toNat / 128)]
  | id, c => rawText (.headerId id) c

/-- A nested element with this id and content: its name, and what is known about the content. -/
def nestedText (id : NestedSubId) (c : Bytes) : Text :=
  .lit "  " :: match id, c with
  | .short .tschSynchronization, b0 :: b1 :: b2 :: b3 :: b4 :: b5 :: _ =>
    [.lit "TSCH Synchronization", .lit " ", .lit "ASN: ",
      .number (b0.toNat + 2^8 * b1.toNat + 2^16 * b2.toNat + 2^24 * b3.toNat + 2^32 * b4.toNat),
      .lit ", join metric: ", .number b5.toNat]
  | .short .tschSynchronization, _ => [.lit "TSCH Synchronization"]
  | .short .tschTimeslot, [] => [.lit "TSCH Timeslot"]
  | .short .tschTimeslot, i :: r =>
    if i.toNat ≠ 0 ∧ r.length < 24 then [.lit "TSCH Timeslot"]
    else [.lit "TSCH Timeslot", .lit " ", .lit "slot ID: ", .number i.toNat]
  | .short .tschSlotframeAndLink, [] => [.lit "TSCH Slotframe and Link"]
  | .short .tschSlotframeAndLink, n :: _ =>
    [.lit "TSCH Slotframe and Link", .lit " ", .lit "#slotframes: ", .number n.toNat]
  | .long .channelHopping, [] => [.lit "Channel Hopping"]
  | .long .channelHopping, i :: _ => [.lit "Channel Hopping", .lit " ", .lit "sequence ID: ", .number i.toNat]
  | .short id, c => rawText (.shortId id) c
  | .long id, c => rawText (.longId id) c

/-- The id of a nested element (7.4.4.1): four bits of a long one, six of a short one. -/
def nestedId (w : BitVec 16) : NestedSubId :=
  if bits w 15 1 = 1 then .long (.ofU8 (BitVec.ofNat 8 (bits w 11 4)))
  else .short (.ofU8 (BitVec.ofNat 8 (bits w 8 6)))

/-- The content an element's descriptor announces. -/
def contentOf (len : BitVec 16 → Nat) (d : Bytes) : Bytes := (d.drop 2).take (len (desc d))

end Dot15d4.Spec
