import Verif.Rust

/-!
# Code generated by the `#[frame]` attribute (dot15d4-macros/src/lib.rs)

The macro is a function from the declared fields to a layout and to getters; that function is
modelled here for arbitrary declarations, together with all declarations of the code base.  Not
modelled: the types `i16` and `i32` (for which the macro generates code that does not compile;
no declaration uses them) and the `#[into(..)]` conversions, which are applied to the getter's
value (they are modelled where they are used).
-/

namespace Dot15d4
open Out

namespace Macro

/-- Declared field types (lib.rs:135-213).  `struct n`: a type that is itself declared with the
macro and whose `size()` is `n` (lib.rs:209-213). -/
inductive Ty
  | bool | u8 | u16 | u32 | u64 | bytes
  | struct (size : Nat)
  deriving DecidableEq, Repr

/-- One declared field. `bytesAttr`, `bitsAttr`: the arguments of `#[bytes(n)]`, `#[bits(n)]`.
`lenOver = some n`: `#[condition(self.buffer.as_ref().len() > n)]`. -/
structure Field where
  name : String
  ty : Ty
  bytesAttr : Option Nat := none
  bitsAttr : Option Nat := none
  lenOver : Option Nat := none
  deriving DecidableEq, Repr

/-- `let mut offset = 0; let mut bits_offset = 0` (lib.rs:66-67). -/
structure Pos where
  offset : Nat
  bits : Nat
  deriving DecidableEq, Repr

/-- How a field moves the position (lib.rs:266-285): only the attributes count. -/
def advance (p : Pos) (f : Field) : Pos :=
  let p := match f.bytesAttr with
    | some n => { p with offset := p.offset + n }
    | none => p
  match f.bitsAttr with
  | some n =>
    let b := p.bits + n
    if b % 8 = 0 ∧ b > 0 then ⟨p.offset + 1, 0⟩ else { p with bits := b }
  | none => p

/-- The position at which each field is read. -/
def layoutFrom (p : Pos) : List Field → List (Field × Pos)
  | [] => []
  | f :: fs => (f, p) :: layoutFrom (advance p f) fs

/-- The loop over the fields (lib.rs:69-286). -/
def layout (fs : List Field) : List (Field × Pos) := layoutFrom ⟨0, 0⟩ fs

/-- `size()` (lib.rs:288-297). -/
def size (fs : List Field) : Nat := (fs.foldl advance ⟨0, 0⟩).offset

/-- The value returned by a getter. -/
inductive Val
  | num (n : Nat)
  | raw (b : Bytes)
  deriving DecidableEq, Repr

/-- `u64::from_le_bytes` of eight bytes, as a number. -/
def u64num (b0 b1 b2 b3 b4 b5 b6 b7 : Byte) : Nat :=
  b0.toNat + 2^8 * b1.toNat + 2^16 * b2.toNat + 2^24 * b3.toNat + 2^32 * b4.toNat +
    2^40 * b5.toNat + 2^48 * b6.toNat + 2^56 * b7.toNat

/-- The body of a getter at a position (lib.rs:135-214). -/
def body (f : Field) (p : Pos) (buf : Bytes) : Out Val :=
  match f.ty with
  | .bool => do
    let s ← sliceFrom buf p.offset
    let b ← idx s 0
    .ok (.num (if (b >>> p.bits) &&& 1#8 != 0#8 then 1 else 0))
  | .u8 => do
    let s ← sliceFrom buf p.offset
    let b ← idx s 0
    match f.bitsAttr with
    | some n => .ok (.num ((b >>> p.bits) &&& ((1#8 <<< n) - 1#8)).toNat)
    | none => .ok (.num b.toNat)
  | .u16 => do
    let s ← sliceFrom buf p.offset
    let b0 ← idx s 0
    let b1 ← idx s 1
    .ok (.num (u16le b0 b1).toNat)
  | .u32 => do
    let s ← sliceFrom buf p.offset
    let b0 ← idx s 0
    let b1 ← idx s 1
    let b2 ← idx s 2
    if f.bytesAttr = some 3 then .ok (.num (u32le 0 b0 b1 b2).toNat)
    else do
      let b3 ← idx s 3
      .ok (.num (u32le b0 b1 b2 b3).toNat)
  | .u64 => do
    let s ← sliceFrom buf p.offset
    let b0 ← idx s 0
    let b1 ← idx s 1
    let b2 ← idx s 2
    let b3 ← idx s 3
    let b4 ← idx s 4
    let b5 ← idx s 5
    let b6 ← idx s 6
    let b7 ← idx s 7
    .ok (.num (u64num b0 b1 b2 b3 b4 b5 b6 b7))
  | .bytes =>
    match f.bytesAttr with
    | some (n+1) => do
      let s ← sliceFrom buf p.offset
      let s ← sliceTo s (n+1)
      .ok (.raw s)
    | _ => do
      let s ← sliceFrom buf p.offset
      .ok (.raw s)
  | .struct n => do
    let s ← sliceFrom buf p.offset
    let s ← sliceTo s n
    .ok (.raw s)

/-- A getter (lib.rs:216-263): `none` when the `#[condition]` does not hold. -/
def getter (f : Field) (p : Pos) (buf : Bytes) : Out (Option Val) :=
  match f.lenOver with
  | some n => if buf.length > n then do let v ← body f p buf; .ok (some v) else .ok none
  | none => do let v ← body f p buf; .ok (some v)

/-- The getter of the first field with a given name; no panic is invented for a missing one. -/
def get (fs : List Field) (name : String) (buf : Bytes) : Out (Option Val) :=
  match (layout fs).find? (fun x => x.1.name == name) with
  | some (f, p) => getter f p buf
  | none => .err

/-- A numeric getter. -/
def getNum (fs : List Field) (name : String) (buf : Bytes) : Out Nat := do
  match ← get fs name buf with
  | some (.num n) => .ok n
  | _ => .err

/-- A getter returning bytes. -/
def getRaw (fs : List Field) (name : String) (buf : Bytes) : Out Bytes := do
  match ← get fs name buf with
  | some (.raw b) => .ok b
  | _ => .err

/-- `new` (lib.rs:44-57): checks `size()`. -/
def new (fs : List Field) (buf : Bytes) : Out Bytes :=
  if buf.length ≥ size fs then .ok buf else .err

/-! ## All declarations -/

/-- `SuperframeSpecification` (frames/beacon.rs:120-147). -/
def superframeSpecification : List Field := [
  { name := "beacon_order", ty := .u8, bitsAttr := some 4 },
  { name := "superframe_order", ty := .u8, bitsAttr := some 4 },
  { name := "final_cap_slot", ty := .u8, bitsAttr := some 4 },
  { name := "battery_life_extension", ty := .bool, bitsAttr := some 1 },
  { name := "_reserved", ty := .bool, bitsAttr := some 1 },
  { name := "pan_coordinator", ty := .bool, bitsAttr := some 1 },
  { name := "association_permit", ty := .bool, bitsAttr := some 1 }]

/-- `GtsSpecification` (frames/beacon.rs:318-330). -/
def gtsSpecification : List Field := [
  { name := "descriptor_count", ty := .u8, bitsAttr := some 3 },
  { name := "_reserved", ty := .u8, bitsAttr := some 4 },
  { name := "gts_permit", ty := .bool, bitsAttr := some 1 }]

/-- `GtsInfo` (frames/beacon.rs:205-213). -/
def gtsInfo : List Field := [
  { name := "gts_spec", ty := .struct (size gtsSpecification), bitsAttr := some 8 },
  { name := "gts_direction", ty := .u8, bitsAttr := some 1 }]

/-- `GtsSlot` (frames/beacon.rs:223-240), without its `#[field]` member `direction`, which is not
read from the buffer. -/
def gtsSlot : List Field := [
  { name := "short_address", ty := .bytes, bytesAttr := some 2 },
  { name := "starting_slot", ty := .u8, bitsAttr := some 4 },
  { name := "length", ty := .u8, bitsAttr := some 4 }]

/-- `PendingAddressSpecification` (frames/beacon.rs:382-392). -/
def pendingAddressSpecification : List Field := [
  { name := "short_address_pending", ty := .u8, bitsAttr := some 3 },
  { name := "_reserved", ty := .u8, bitsAttr := some 1 },
  { name := "extended_address_pending", ty := .u8, bitsAttr := some 3 },
  { name := "_reserved", ty := .u8, bitsAttr := some 1 }]

/-- `PendingAddress` (frames/beacon.rs:360-364). -/
def pendingAddress : List Field := [
  { name := "pending_address_spec", ty := .struct (size pendingAddressSpecification),
    bitsAttr := some 8 }]

/-- `VendorSpecific` (ie/headers.rs:246-256). -/
def vendorSpecific : List Field := [
  { name := "vendor_oui", ty := .u32, bytesAttr := some 3 },
  { name := "vendor_specific_payload", ty := .bytes, bytesAttr := some 0 }]

/-- `Csl` (ie/headers.rs:259-269). -/
def csl : List Field := [
  { name := "csl_phase", ty := .u16 },
  { name := "csl_period", ty := .u16 },
  { name := "rendezvous_time", ty := .u16, lenOver := some 4 }]

/-- `Rit` (ie/headers.rs:272-281). -/
def rit : List Field := [
  { name := "time_to_first_listen", ty := .u8 },
  { name := "number_of_repeat_listen", ty := .u8 },
  { name := "repeat_listen_interval", ty := .u16 }]

/-- `DsmeSuperframeSpecification` (ie/headers.rs:284-300). -/
def dsmeSuperframeSpecification : List Field := [
  { name := "multi_superframe_order", ty := .u8, bitsAttr := some 4 },
  { name := "channel_diversity_mode", ty := .bool, bitsAttr := some 1 },
  { name := "_reserved", ty := .bool, bitsAttr := some 1 },
  { name := "cap_reduction", ty := .bool, bitsAttr := some 1 },
  { name := "deferred_beacon", ty := .bool, bitsAttr := some 1 }]

/-- `TimeSynchronizationSpecification` (ie/headers.rs:303-311). -/
def timeSynchronizationSpecification : List Field := [
  { name := "beacon_timestamp", ty := .bytes, bytesAttr := some 8 },
  { name := "beacon_offset_timestamp", ty := .u16 }]

/-- `ChannelHoppingSpecification` (ie/headers.rs:314-327). -/
def channelHoppingSpecification : List Field := [
  { name := "hopping_sequence_id", ty := .u8 },
  { name := "pan_coordinator_bsn", ty := .u8 },
  { name := "channel_offset", ty := .u16 },
  { name := "channel_offset_bitmap_length", ty := .u8 },
  { name := "channel_offset_bitmap", ty := .bytes, bytesAttr := some 0 }]

/-- `RendezvousTime` (ie/headers.rs:330-336). -/
def rendezvousTime : List Field := [
  { name := "rendezvous_time", ty := .u16 },
  { name := "wake_up_interval", ty := .u16 }]

/-- `CfpSpecification` (ie/headers.rs:438-455). -/
def cfpSpecification : List Field := [
  { name := "gts_count", ty := .u8, bitsAttr := some 3 },
  { name := "first_cfp_slot", ty := .u8, bitsAttr := some 5 },
  { name := "last_cfp_slot", ty := .u8, bitsAttr := some 4 },
  { name := "gts_permit", ty := .bool, bitsAttr := some 1 }]

/-- `SimplifiedSuperframeSpecification` (ie/headers.rs:423-436). -/
def simplifiedSuperframeSpecification : List Field := [
  { name := "timestamp", ty := .u16 },
  { name := "superframe_specification", ty := .struct (size superframeSpecification),
    bytesAttr := some 2 },
  { name := "cfp_specification", ty := .struct (size cfpSpecification), bytesAttr := some 2 }]

end Macro

end Dot15d4
