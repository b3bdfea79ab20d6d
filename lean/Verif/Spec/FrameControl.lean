import Verif.Model.FrameControl
/-!
# Specification of the Frame Control field

IEEE 802.15.4 figure 7-2, independent of the code: a bit position per field of the two
transmitted octets `o0`, `o1` (bit 0 = least significant bit of the first octet).
-/
namespace Dot15d4.Spec
open Dot15d4

/-- Bit `i` (0..15) of the frame control field in transmission order. -/
def fcBit (o0 o1 : Byte) (i : Nat) : Bool :=
  if i < 8 then o0.toNat / 2 ^ i % 2 = 1 else o1.toNat / 2 ^ (i - 8) % 2 = 1

/-- Unsigned value of the `n`-bit field starting at bit `lo`. -/
def fcField (o0 o1 : Byte) (lo n : Nat) : Nat := (o0.toNat + 256 * o1.toNat) / 2 ^ lo % 2 ^ n

/-- Frame type codes, IEEE 802.15.4-2020 table 7-1. -/
def frameTypeCode : Nat → FrameType
  | 0 => .beacon | 1 => .data | 2 => .ack | 3 => .macCommand
  | 5 => .multipurpose | 6 => .fragmentOrFrak | 7 => .extended | _ => .unknown

/-- Frame version codes, table 7-4. -/
def versionCode : Nat → FrameVersion
  | 0 => .v2003 | 1 => .v2006 | 2 => .v2020 | _ => .unknown

/-- Addressing mode codes, table 7-3. -/
def modeCode : Nat → AddressingMode
  | 0 => .absent | 2 => .short | 3 => .extended | _ => .unknown

/-- What the standard says the two octets mean. -/
def decodeFc (o0 o1 : Byte) : FrameControlRepr where
  frameType := frameTypeCode (fcField o0 o1 0 3)
  securityEnabled := fcBit o0 o1 3
  framePending := fcBit o0 o1 4
  ackRequest := fcBit o0 o1 5
  panIdCompression := fcBit o0 o1 6
  seqNoSuppression := fcBit o0 o1 8
  iePresent := fcBit o0 o1 9
  dstMode := modeCode (fcField o0 o1 10 2)
  frameVersion := versionCode (fcField o0 o1 12 2)
  srcMode := modeCode (fcField o0 o1 14 2)

/-- A representation that exists on the wire: no `Unknown` type or addressing mode (those are
names for reserved codes, and cannot be written). -/
def Writable (r : FrameControlRepr) : Prop :=
  r.frameType ≠ .unknown ∧ r.dstMode ≠ .unknown ∧ r.srcMode ≠ .unknown

instance (r : FrameControlRepr) : Decidable (Writable r) := by unfold Writable; infer_instance

end Dot15d4.Spec

namespace Dot15d4.Spec
open Dot15d4

/-- "The operation updates the decoded frame control exactly by `upd` and touches nothing else":
every other field, the reserved bit 7 and all bytes after the first two are unchanged. -/
def UpdatesOnly (op : Bytes → Out Bytes) (upd : FrameControlRepr → FrameControlRepr)
    (o0 o1 : Byte) (rest : Bytes) : Prop :=
  ∃ o0' o1', op (o0 :: o1 :: rest) = .ok (o0' :: o1' :: rest) ∧
    decodeFc o0' o1' = upd (decodeFc o0 o1) ∧ fcBit o0' o1' 7 = fcBit o0 o1 7

end Dot15d4.Spec
