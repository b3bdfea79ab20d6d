import Verif.Model.Beacon
import Verif.Spec.Addressing

/-!
# Beacons and security headers as IEEE 802.15.4 lays them out

IEEE 802.15.4-2020, 7.3.1 (beacon frame format) and 9.4 (auxiliary security header).
Addresses are transmitted least significant octet first, like the addresses of the addressing fields
(`addrBytes`); `Address` holds them in the order in which they are written down.
-/

namespace Dot15d4.Spec

/-- A GTS descriptor: device, starting slot, number of slots, direction. -/
structure GtsEntry where
  address : Arr 2
  start : Nat
  slots : Nat
  transmit : Bool
  deriving DecidableEq

/-- The third octet of a descriptor: starting slot in the lower half, length in the upper half. -/
def GtsEntry.slotOctet (e : GtsEntry) : Byte := BitVec.ofNat 8 (e.start + 16 * e.slots)

/-- A descriptor as transmitted. -/
def GtsEntry.octets (e : GtsEntry) : Bytes := addrBytes (.short e.address) ++ [e.slotOctet]

/-- The GTS directions: bit `k` belongs to the descriptor number `k`. -/
def directionBits : List GtsEntry → Nat
  | [] => 0
  | e :: es => e.transmit.toNat + 2 * directionBits es

/-- A beacon. -/
structure StdBeacon where
  (o0 o1 seq : Byte)
  addressing : Bytes
  (s0 s1 : Byte)
  permit : Bool
  gts : List GtsEntry
  short : List (Arr 2)
  extended : List (Arr 8)
  payload : Bytes
  deriving DecidableEq

/-- The GTS fields: the specification, and, if there are descriptors, the directions and the list. -/
def StdBeacon.gtsField (b : StdBeacon) : Bytes :=
  BitVec.ofNat 8 (b.gts.length + 128 * b.permit.toNat) ::
    if b.gts = [] then [] else BitVec.ofNat 8 (directionBits b.gts) :: b.gts.flatMap GtsEntry.octets

/-- The pending address field: the numbers of short and of extended addresses, and the addresses. -/
def StdBeacon.pendingField (b : StdBeacon) : Bytes :=
  BitVec.ofNat 8 (b.short.length + 16 * b.extended.length) ::
    (b.short.flatMap (fun a => addrBytes (.short a)) ++
      b.extended.flatMap (fun a => addrBytes (.extended a)))

/-- The pending addresses. -/
def StdBeacon.pending (b : StdBeacon) : List Address := b.short.map .short ++ b.extended.map .extended

/-- The beacon as transmitted. -/
def StdBeacon.octets (b : StdBeacon) : Bytes :=
  [b.o0, b.o1, b.seq] ++ b.addressing ++ [b.s0, b.s1] ++ b.gtsField ++ b.pendingField ++ b.payload

/-- The length of an auxiliary security header: the security control octet, the frame counter unless
it is suppressed (bit 5), and the key identifier as its mode (bits 3 and 4) says. -/
def securityHeaderLen (control : Byte) : Nat :=
  1 + (if control.toNat / 32 % 2 = 1 then 0 else 4) +
    (match control.toNat / 8 % 4 with | 0 => 0 | 1 => 1 | 2 => 5 | _ => 9)

end Dot15d4.Spec
