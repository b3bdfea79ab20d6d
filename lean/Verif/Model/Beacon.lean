import Verif.Model.Addressing
import Verif.Model.Macro

/-!
# Auxiliary security header (aux_sec_header.rs) and beacon frames (frames/beacon.rs:13-448)
-/

namespace Dot15d4
open Out

/-- `SecurityAttributes` (aux_sec_header.rs:103-112). -/
inductive SecurityAttributes
  | none | mic32 | mic64 | mic128 | encMic32 | encMic64 | encMic128 | unknown
  deriving DecidableEq, Repr

/-- `KeyIdentifierMode` (aux_sec_header.rs:134-138). -/
inductive KeyIdentifierMode
  | implicit | explicit | unknown
  deriving DecidableEq, Repr

/-- The byte of a `SecurityLevel` (aux_sec_header.rs:59-61). -/
abbrev SecurityLevel := Byte

namespace SecurityLevel
/-- `security_attributes` (aux_sec_header.rs:69-80). -/
def securityAttributes (l : SecurityLevel) : SecurityAttributes :=
  if l = 0 then .none else if l = 1 then .mic32 else if l = 2 then .mic64
  else if l = 3 then .mic128 else if l = 5 then .encMic32 else if l = 6 then .encMic64
  else if l = 7 then .encMic128 else .unknown
/-- `data_confidentiality` (aux_sec_header.rs:83-85). -/
def dataConfidentiality (l : SecurityLevel) : Bool := (l >>> 3) &&& 1#8 == 1#8
/-- `data_authenticity` (aux_sec_header.rs:88-90). -/
def dataAuthenticity (l : SecurityLevel) : Bool := l != 0#8
/-- `mic_length` (aux_sec_header.rs:93-100). -/
def micLength (l : SecurityLevel) : Nat :=
  match securityAttributes l with
  | .mic32 | .encMic32 => 4
  | .mic64 | .encMic64 => 8
  | .mic128 | .encMic128 => 16
  | _ => 0
end SecurityLevel

/-- The byte of a `SecurityControl` (aux_sec_header.rs:28-30). -/
abbrev SecurityControl := Byte

namespace SecurityControl
/-- `security_level` (aux_sec_header.rs:38-40). -/
def securityLevel (c : SecurityControl) : SecurityLevel := c &&& 0b111#8
/-- `key_identifier_mode().key_identifier_mode()` (aux_sec_header.rs:43-45, 125-131). -/
def keyIdentifierMode (c : SecurityControl) : KeyIdentifierMode :=
  let k := (c >>> 3) &&& 0b11#8
  if k = 0 then .implicit else if k = 1 then .explicit else .unknown
/-- `frame_counter_suppression` (aux_sec_header.rs:48-50). -/
def frameCounterSuppression (c : SecurityControl) : Bool := (c >>> 5) &&& 1#8 == 1#8
/-- `asn_in_nonce` (aux_sec_header.rs:53-55). -/
def asnInNonce (c : SecurityControl) : Bool := (c >>> 6) &&& 1#8 == 1#8
end SecurityControl

/-- The bytes of an `AuxiliarySecurityHeader` (aux_sec_header.rs:8-15). -/
abbrev AuxSecHeader := Bytes

namespace AuxSecHeader
/-- `security_control` (aux_sec_header.rs:22-24). -/
def securityControl (b : AuxSecHeader) : Out SecurityControl := idx b 0
/-- `len` (aux_sec_header.rs:18-20). -/
def len (b : AuxSecHeader) : Out Nat := do
  let c ← securityControl b
  .ok (1 + SecurityLevel.micLength (SecurityControl.securityLevel c))
end AuxSecHeader

/-- `BeaconOrder` (frames/beacon.rs:149-158). -/
inductive BeaconOrder | order (v : Byte) | onDemand
  deriving DecidableEq, Repr
/-- `impl From<u8> for BeaconOrder` (beacon.rs:160-167). -/
def BeaconOrder.ofU8 (v : Byte) : BeaconOrder := if v.toNat ≤ 14 then .order v else .onDemand
/-- `impl From<BeaconOrder> for u8` (beacon.rs:168-175). -/
def BeaconOrder.toU8 : BeaconOrder → Byte | .order v => v | .onDemand => 15

/-- `SuperframeOrder` (frames/beacon.rs:177-186). -/
inductive SuperframeOrder | order (v : Byte) | inactive
  deriving DecidableEq, Repr
/-- `impl From<u8> for SuperframeOrder` (beacon.rs:188-195). -/
def SuperframeOrder.ofU8 (v : Byte) : SuperframeOrder := if v.toNat ≤ 14 then .order v else .inactive
/-- `impl From<SuperframeOrder> for u8` (beacon.rs:196-203). -/
def SuperframeOrder.toU8 : SuperframeOrder → Byte | .order v => v | .inactive => 15

/-- `GtsDirection` (frames/beacon.rs:332-340). -/
inductive GtsDirection | receive | transmit
  deriving DecidableEq, Repr
/-- `impl From<u8> for GtsDirection` (beacon.rs:342-349). -/
def GtsDirection.ofU8 (v : Byte) : GtsDirection := if v = 0 then .receive else .transmit
/-- `impl From<GtsDirection> for u8` (beacon.rs:351-358). -/
def GtsDirection.toU8 : GtsDirection → Byte | .receive => 0 | .transmit => 1

/-! ## Superframe specification, generated getters with `#[into]` (beacon.rs:120-147) -/

/-- The bytes of a `SuperframeSpecification`. -/
abbrev SuperframeSpecification := Bytes

namespace SuperframeSpecification
/-- `beacon_order` (beacon.rs:125-128). -/
def beaconOrder (b : SuperframeSpecification) : Out BeaconOrder := do
  let n ← Macro.getNum Macro.superframeSpecification "beacon_order" b
  .ok (.ofU8 (BitVec.ofNat 8 n))
/-- `superframe_order` (beacon.rs:129-132). -/
def superframeOrder (b : SuperframeSpecification) : Out SuperframeOrder := do
  let n ← Macro.getNum Macro.superframeSpecification "superframe_order" b
  .ok (.ofU8 (BitVec.ofNat 8 n))
end SuperframeSpecification

/-! ## GTS fields (beacon.rs:205-330) -/

/-- The bytes of a `GtsSpecification`. -/
abbrev GtsSpecification := Bytes
/-- The bytes of a `GtsInfo`. -/
abbrev GtsInfo := Bytes

/-- A `GtsSlot`: its bytes and its direction (beacon.rs:223-240). -/
structure GtsSlot where
  buffer : Bytes
  direction : GtsDirection
  deriving DecidableEq, Repr

/-- `GtsSlotIterator` (beacon.rs:287-291). -/
structure GtsSlotIter where
  data : Bytes
  count : Nat
  terminated : Bool
  deriving DecidableEq, Repr

/-- `GtsSpecification::descriptor_count` (generated). -/
def GtsSpecification.descriptorCount (b : GtsSpecification) : Out Nat :=
  Macro.getNum Macro.gtsSpecification "descriptor_count" b

/-- `GtsSpecification::slots` (beacon.rs:268-283). -/
def GtsSpecification.slots (b : GtsSpecification) : Out GtsSlotIter := do
  let n ← GtsSpecification.descriptorCount b
  if n = 0 then .ok ⟨[], 0, true⟩
  else do
    let s ← sliceFrom b 1
    let n ← GtsSpecification.descriptorCount b
    let s ← sliceTo s (1 + n * Macro.size Macro.gtsSlot)
    .ok ⟨s, 0, false⟩

/-- `GtsInfo::gts_spec().unwrap()` (beacon.rs:208-209, 218): the getter slices one byte and
`GtsSpecification::new` then succeeds. -/
def GtsInfo.gtsSpec (b : GtsInfo) : Out GtsSpecification := do
  let s ← Macro.getRaw Macro.gtsInfo "gts_spec" b
  (Macro.new Macro.gtsSpecification s).unwrap

/-- `GtsInfo::length` (beacon.rs:215-220). -/
def GtsInfo.length (b : GtsInfo) : Out Nat := do
  let s ← GtsInfo.gtsSpec b
  let n ← GtsSpecification.descriptorCount s
  .ok (1 + n * Macro.size Macro.gtsSlot)

/-- `GtsSlot::new` (beacon.rs:242-257). -/
def GtsSlot.new (b : Bytes) (d : GtsDirection) : Out GtsSlot :=
  if b.length ≥ Macro.size Macro.gtsSlot then .ok ⟨b, d⟩ else .err

/-- `GtsSlotIterator::next` (beacon.rs:293-316). -/
def gtsSlotNext (s : GtsSlotIter) : Out (Option GtsSlot × GtsSlotIter) :=
  if s.terminated then .ok (none, s)
  else if 1 + s.count * Macro.size Macro.gtsSlot ≥ s.data.length then .ok (none, s)
  else do
    let b ← idx s.data 0
    let direction := GtsDirection.ofU8 ((b >>> s.count) &&& 1#8)
    let rest ← sliceFrom s.data (1 + s.count * Macro.size Macro.gtsSlot)
    let r ← (GtsSlot.new rest direction).toOption
    match r with
    | none => .ok (none, s)
    | some d =>
      let count := s.count + 1
      .ok (some d, { s with
        count := count
        terminated := if 1 + count * Macro.size Macro.gtsSlot ≥ s.data.length then true
          else s.terminated })

/-! ## Pending addresses (beacon.rs:360-448) -/

/-- The bytes of a `PendingAddress`. -/
abbrev PendingAddress := Bytes

/-- `PendingAddressIterator` (beacon.rs:394-399). -/
structure PendingIter where
  data : Bytes
  short : Nat
  extended : Nat
  terminated : Bool
  deriving DecidableEq, Repr

namespace PendingAddress
/-- `pending_address_spec().unwrap()` (beacon.rs:362-363, 368). -/
def spec (b : PendingAddress) : Out Bytes := do
  let s ← Macro.getRaw Macro.pendingAddress "pending_address_spec" b
  (Macro.new Macro.pendingAddressSpecification s).unwrap
/-- `short_address_pending`, `extended_address_pending` of the specification byte (generated). -/
def counts (s : Bytes) : Out (Nat × Nat) := do
  let a ← Macro.getNum Macro.pendingAddressSpecification "short_address_pending" s
  let e ← Macro.getNum Macro.pendingAddressSpecification "extended_address_pending" s
  .ok (a, e)
/-- `length` (beacon.rs:367-370). -/
def length (b : PendingAddress) : Out Nat := do
  let s ← spec b
  let c ← counts s
  .ok (1 + c.1 * 2 + c.2 * 8)
/-- `pending_addresses` (beacon.rs:372-379). -/
def pendingAddresses (b : PendingAddress) : Out PendingIter := do
  let s ← spec b
  let rest ← sliceFrom b 1
  let n ← length b
  let data ← sliceTo rest (n - 1)
  let c ← counts s
  .ok ⟨data, c.1, c.2, false⟩
end PendingAddress

/-- `PendingAddressIterator::next` (beacon.rs:412-448). -/
def pendingNext (s : PendingIter) : Out (Option Address × PendingIter) :=
  if s.terminated then .ok (none, s)
  else if s.short > 0 then
    if s.data.length < 2 then .ok (none, s)
    else do
      let b0 ← idx s.data 0
      let b1 ← idx s.data 1
      let rest ← sliceFrom s.data 2
      .ok (some (.short ⟨[b0, b1], rfl⟩), { s with data := rest, short := s.short - 1 })
  else if s.extended > 0 then
    if s.data.length < 8 then .ok (none, s)
    else do
      let a ← sliceTo s.data 8
      let a ← arrOfSlice 8 a
      let rest ← sliceFrom s.data 8
      .ok (some (.extended a), { s with data := rest, extended := s.extended - 1 })
  else .ok (none, { s with terminated := true })

/-! ## Beacon (beacon.rs:13-118) -/

/-- The bytes of a `Beacon`. -/
abbrev Beacon := Bytes

namespace Beacon
/-- `Beacon::new` (beacon.rs:20-22): `todo!()`. -/
def new (_ : Bytes) : Out Beacon := .panic
/-- `frame_control` (beacon.rs:34-36). -/
def frameControl (b : Beacon) : Out Bytes := sliceTo b 2
/-- `sequence_number` (beacon.rs:39-41). -/
def sequenceNumber (b : Beacon) : Out Byte := idx b 2
/-- `addressing` (beacon.rs:44-46), unchecked. -/
def addressing (b : Beacon) : Out AddressingFields := do
  let s ← sliceFrom b 3
  let fc ← frameControl b
  .ok ⟨s, fc⟩
/-- `auxiliary_security_header` (beacon.rs:48-61). -/
def auxSecHeader (b : Beacon) : Out (Option AuxSecHeader) := do
  let fc ← frameControl b
  if ← FrameControl.securityEnabled fc then do
    let af ← addressing b
    let n ← af.len
    let s ← sliceFrom b (3 + n)
    .ok (some s)
  else .ok none
/-- The offset after the addressing fields and the security header (beacon.rs:64-69, 75-80,
88-93, 105-110). -/
def headerEnd (b : Beacon) : Out Nat := do
  let af ← addressing b
  let n ← af.len
  let fc ← frameControl b
  if ← FrameControl.securityEnabled fc then do
    let h ← auxSecHeader b
    let h ← ofSome h
    let m ← AuxSecHeader.len h
    .ok (3 + n + m)
  else .ok (3 + n)
/-- `superframe_specification` (beacon.rs:63-72). -/
def superframeSpecification (b : Beacon) : Out SuperframeSpecification := do
  let o ← headerEnd b
  let s ← sliceFrom b o
  sliceTo s 2
/-- `gts_info` (beacon.rs:74-85). -/
def gtsInfo (b : Beacon) : Out GtsInfo := do
  let o ← headerEnd b
  sliceFrom b (o + 2)
/-- `pending_address` (beacon.rs:87-99). -/
def pendingAddress (b : Beacon) : Out PendingAddress := do
  let o ← headerEnd b
  let g ← gtsInfo b
  let n ← GtsInfo.length g
  sliceFrom b (o + 2 + n)
/-- `payload` (beacon.rs:104-117). -/
def payload (b : Beacon) : Out (Option Bytes) := do
  let o ← headerEnd b
  let g ← gtsInfo b
  let n ← GtsInfo.length g
  let p ← pendingAddress b
  let m ← PendingAddress.length p
  let s ← sliceFrom b (o + 2 + n + m)
  .ok (some s)
end Beacon

end Dot15d4
