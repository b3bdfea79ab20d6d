import Verif.Model.FrameControl
/-!
# Addresses and addressing fields
dot15d4-frame/src/addressing.rs and dot15d4-frame/src/repr/addressing.rs
-/
namespace Dot15d4
open Out

/-- `[u8; n]`. -/
abbrev Arr (n : Nat) := { l : Bytes // l.length = n }

/-- `let mut raw = [0u8; n]; raw.clone_from_slice(s)` (panics unless the lengths agree). -/
def arrOfSlice (n : Nat) (s : Bytes) : Out (Arr n) :=
  if h : s.length = n then .ok ⟨s, h⟩ else .panic

/-- `raw.reverse()` -/
def Arr.reverse {n : Nat} (a : Arr n) : Arr n := ⟨a.1.reverse, by simp [a.2]⟩

/-- `Address`, addressing.rs:10-17 -/
inductive Address
  | absent
  | short (a : Arr 2)
  | extended (a : Arr 8)
  deriving DecidableEq, Repr

namespace Address

/-- `Address::BROADCAST`, addressing.rs:21 -/
def BROADCAST : Address := .short ⟨[0xff, 0xff], rfl⟩

/-- `is_broadcast`, addressing.rs:29-31 -/
def isBroadcast (a : Address) : Bool := a == BROADCAST

/-- `is_unicast`, addressing.rs:24-26 -/
def isUnicast (a : Address) : Bool := !a.isBroadcast

/-- `Address::from(&[u8])`, addressing.rs:34-48 -/
def ofBytes (a : Bytes) : Out Address :=
  if a.isEmpty then .ok .absent
  else if a.length = 2 then do let b ← arrOfSlice 2 a; .ok (.short b)
  else if a.length = 8 then do let b ← arrOfSlice 8 a; .ok (.extended b)
  else .panic

/-- `as_bytes`, addressing.rs:51-57 -/
def asBytes : Address → Bytes
  | .absent => []
  | .short v => v.1
  | .extended v => v.1

/-- `to_short`, addressing.rs:60-70 -/
def toShort : Address → Out (Option Address)
  | .short v => .ok (some (.short v))
  | .extended v => do
      let s ← sliceTo v.1 2
      let raw ← arrOfSlice 2 s
      .ok (some (.short raw))
  | .absent => .ok none

/-- `len`, addressing.rs:84-90 -/
def len : Address → Nat
  | .absent => 0
  | .short _ => 2
  | .extended _ => 8

/-- `is_absent`, addressing.rs:93-95 -/
def isAbsent : Address → Bool | .absent => true | _ => false
/-- `is_short`, addressing.rs:98-100 -/
def isShort : Address → Bool | .short _ => true | _ => false
/-- `is_extended`, addressing.rs:103-105 -/
def isExtended : Address → Bool | .extended _ => true | _ => false

/-- `impl From<Address> for AddressingMode`, addressing.rs:135-143 -/
def mode : Address → AddressingMode
  | .absent => .absent
  | .short _ => .short
  | .extended _ => .extended

/-- One lower-case hex digit of `{:02x}`. -/
def hexDigit (n : Nat) : Char :=
  if n < 10 then Char.ofNat (48 + n) else Char.ofNat (87 + n)

/-- `{:02x}` of a byte. -/
def hex2 (b : Byte) : List Char := [hexDigit (b.toNat / 16), hexDigit (b.toNat % 16)]

/-- `{:02x}:{:02x}:…` -/
def hexColon : Bytes → List Char
  | [] => []
  | [b] => hex2 b
  | b :: bs => hex2 b ++ ':' :: hexColon bs

/-- `impl Display for Address`, addressing.rs:145-157 (text as a list of characters). -/
def display : Address → List Char
  | .absent => ['a', 'b', 's', 'e', 'n', 't']
  | .short v => hexColon v.1
  | .extended v => hexColon v.1

/-- `str::split(':')` collected. -/
def splitColon : List Char → List (List Char)
  | [] => [[]]
  | c :: cs =>
    if c = ':' then [] :: splitColon cs
    else match splitColon cs with
      | [] => [[c]]
      | p :: ps => (c :: p) :: ps

/-- Value of a hexadecimal digit (`char::to_digit(16)`). -/
def hexVal (c : Char) : Option Nat :=
  if '0' ≤ c ∧ c ≤ '9' then some (c.toNat - 48)
  else if 'a' ≤ c ∧ c ≤ 'f' then some (c.toNat - 87)
  else if 'A' ≤ c ∧ c ≤ 'F' then some (c.toNat - 55)
  else none

/-- Digits of an accumulating radix-16 parse with `u8` overflow check. -/
def fromHexDigits : Nat → List Char → Option Nat
  | acc, [] => some acc
  | acc, c :: cs =>
    match hexVal c with
    | none => none
    | some d => if acc * 16 + d < 256 then fromHexDigits (acc * 16 + d) cs else none

/-- `u8::from_str_radix(part, 16)`: optional leading `+`, at least one digit, no overflow. -/
def fromStrRadix16 (s : List Char) : Option Byte :=
  match s with
  | [] => none
  | ['+'] => none
  | '+' :: cs => (fromHexDigits 0 cs).map (BitVec.ofNat 8)
  | cs => (fromHexDigits 0 cs).map (BitVec.ofNat 8)

/-- The loop `bytes[i] = u8::from_str_radix(part, 16).unwrap()` over all parts. -/
def parseParts : List (List Char) → Out Bytes
  | [] => .ok []
  | p :: ps => do
      let b ← ofSome (fromStrRadix16 p)
      let bs ← parseParts ps
      .ok (b :: bs)

/-- `Address::parse`, addressing.rs:109-132 -/
def parse (s : List Char) : Out Address :=
  if s.isEmpty then .ok .absent
  else
    let parts := splitColon s
    if parts.length = 2 then do
      let bs ← parseParts parts
      let a ← arrOfSlice 2 bs
      .ok (.short a)
    else if parts.length = 8 then do
      let bs ← parseParts parts
      let a ← arrOfSlice 8 bs
      .ok (.extended a)
    else .err

end Address

/-- Result of `address_present_flags`: (dst PAN present, dst mode, src PAN present, src mode). -/
structure PresentFlags where
  dstPan : Bool
  dstMode : AddressingMode
  srcPan : Bool
  srcMode : AddressingMode
  deriving DecidableEq, Repr

/-- `AddressingFields::address_present_flags`, addressing.rs:270-325 -/
def addressPresentFlags (v : FrameVersion) (dst src : AddressingMode) (comp : Bool) :
    Option PresentFlags :=
  match v with
  | .v2003 | .v2006 =>
    match dst, src, comp with
    | .short, .short, false => some ⟨true, .short, true, .short⟩
    | .short, .extended, false => some ⟨true, .short, true, .extended⟩
    | .extended, .short, false => some ⟨true, .extended, true, .short⟩
    | .extended, .extended, false => some ⟨true, .extended, true, .extended⟩
    | .short, .short, true => some ⟨true, .short, false, .short⟩
    | .short, .extended, true => some ⟨true, .short, false, .extended⟩
    | .extended, .short, true => some ⟨true, .extended, false, .short⟩
    | .extended, .extended, true => some ⟨true, .extended, false, .extended⟩
    | .absent, .short, false => some ⟨false, .absent, true, .short⟩
    | .absent, .extended, false => some ⟨false, .absent, true, .extended⟩
    | .short, .absent, false => some ⟨true, .short, false, .absent⟩
    | .extended, .absent, false => some ⟨true, .extended, false, .absent⟩
    | _, _, _ => none
  | .v2020 =>
    match dst, src, comp with
    | .absent, .absent, false => some ⟨false, .absent, false, .absent⟩
    | .absent, .absent, true => some ⟨true, .absent, false, .absent⟩
    | dst, .absent, false => some ⟨true, dst, false, .absent⟩
    | dst, .absent, true => some ⟨false, dst, false, .absent⟩
    | .absent, src, false => some ⟨false, .absent, true, src⟩
    | .absent, src, true => some ⟨false, .absent, false, src⟩
    | .extended, .extended, false => some ⟨true, .extended, false, .extended⟩
    | .extended, .extended, true => some ⟨false, .extended, false, .extended⟩
    | .short, .short, false => some ⟨true, .short, true, .short⟩
    | .short, .extended, false => some ⟨true, .short, true, .extended⟩
    | .extended, .short, false => some ⟨true, .extended, true, .short⟩
    | .short, .extended, true => some ⟨true, .short, false, .extended⟩
    | .extended, .short, true => some ⟨true, .extended, false, .short⟩
    | .short, .short, true => some ⟨true, .short, false, .short⟩
    | _, _, _ => none
  | .unknown => none

/-- `AddressingFields`, addressing.rs:198-201: the buffer and the frame control reader. -/
structure AddressingFields where
  buffer : Bytes
  fc : Bytes
  deriving DecidableEq, Repr

/-- `AddressingFieldsRepr`, repr/addressing.rs:8-17 -/
structure AddressingFieldsRepr where
  dstPanId : Option (BitVec 16) := none
  dstAddress : Option Address := none
  srcPanId : Option (BitVec 16) := none
  srcAddress : Option Address := none
  deriving DecidableEq, Repr

namespace AddressingFields

/-- The call `Self::address_present_flags(self.fc.frame_version(), …)` that starts every
accessor (addressing.rs:224-229, 329-334, 360-365, 393-398, 408-413). -/
def flags (af : AddressingFields) : Out (Option PresentFlags) := do
  let v ← FrameControl.frameVersion af.fc
  let d ← FrameControl.dstMode af.fc
  let s ← FrameControl.srcMode af.fc
  let c ← FrameControl.panIdCompression af.fc
  .ok (addressPresentFlags v d s c)

/-- `check_len`, addressing.rs:222-240 -/
def checkLen (af : AddressingFields) : Out Bool := do
  match ← af.flags with
  | none => .ok false
  | some f =>
    let expected := (if f.dstPan then 2 else 0) + f.dstMode.size
      + (if f.srcPan then 2 else 0) + f.srcMode.size
    .ok (decide (af.buffer.length ≥ expected))

/-- `AddressingFields::new`, addressing.rs:211-219 -/
def new (buffer fc : Bytes) : Out AddressingFields := do
  let af : AddressingFields := ⟨buffer, fc⟩
  if ← af.checkLen then .ok af else .err

/-- `dst_pan_id`, addressing.rs:392-404 -/
def dstPanId (af : AddressingFields) : Out (Option (BitVec 16)) := do
  match ← af.flags with
  | some ⟨true, _, _, _⟩ => do
      let w ← readU16 af.buffer
      .ok (some w)
  | _ => .ok none

/-- `src_pan_id`, addressing.rs:407-422 -/
def srcPanId (af : AddressingFields) : Out (Option (BitVec 16)) := do
  match ← af.flags with
  | some ⟨dstPan, dstMode, true, _⟩ => do
      let offset := (if dstPan then 2 else 0) + dstMode.size
      let b ← sliceFrom af.buffer offset
      let w ← readU16 b
      .ok (some w)
  | _ => .ok none

/-- The `match` on the addressing mode in `dst_address`/`src_address`
(addressing.rs:337-352, 370-385). -/
def readAddress (b : Bytes) (offset : Nat) : AddressingMode → Out (Option Address)
  | .absent => .ok (some .absent)
  | .short => do
      let s ← slice b offset (offset + 2)
      let raw ← arrOfSlice 2 s
      .ok (some (.short raw.reverse))
  | .extended => do
      let s ← slice b offset (offset + 8)
      let raw ← arrOfSlice 8 s
      .ok (some (.extended raw.reverse))
  | .unknown => .ok none

/-- `dst_address`, addressing.rs:328-356 -/
def dstAddress (af : AddressingFields) : Out (Option Address) := do
  match ← af.flags with
  | some f => readAddress af.buffer (if f.dstPan then 2 else 0) f.dstMode
  | none => .ok none

/-- `src_address`, addressing.rs:359-389 -/
def srcAddress (af : AddressingFields) : Out (Option Address) := do
  match ← af.flags with
  | some f =>
      readAddress af.buffer
        ((if f.dstPan then 2 else 0) + f.dstMode.size + (if f.srcPan then 2 else 0)) f.srcMode
  | none => .ok none

/-- The mode-to-size `match` with `unreachable!()` of `len`, addressing.rs:254-258, 262-266; also
repr/addressing.rs:53-58, 61-66. -/
def modeLen : AddressingMode → Out Nat
  | .absent => .ok 0
  | .short => .ok 2
  | .extended => .ok 8
  | .unknown => .panic

/-- `len`, addressing.rs:250-268 -/
def len (af : AddressingFields) : Out Nat := do
  let dp ← af.dstPanId
  let dm ← FrameControl.dstMode af.fc
  let dl ← modeLen dm
  let sp ← af.srcPanId
  let sm ← FrameControl.srcMode af.fc
  let sl ← modeLen sm
  .ok ((if dp.isSome then 2 else 0) + dl + (if sp.isSome then 2 else 0) + sl)

/-- One PAN id of `write_fields` (addressing.rs:454-458, 478-482): new buffer and offset. -/
def writePan (b : Bytes) (offset : Nat) : Option (BitVec 16) → Out (Bytes × Nat)
  | none => .ok (b, offset)
  | some id => do
      let b ← modifyAt b offset 2 (fun s => copyFromSlice s (u16bytes id))
      .ok (b, offset + 2)

/-- The `match addr` of `write_fields` on the target slice (addressing.rs:462-474, 486-498). -/
def copyAddr (addr : Address) (s : Bytes) : Out Bytes :=
  match addr with
  | .absent => .ok s
  | .short v => copyFromSlice s v.reverse.1
  | .extended v => copyFromSlice s v.reverse.1

/-- One address of `write_fields` (addressing.rs:460-476, 484-499). -/
def writeAddr (b : Bytes) (offset : Nat) : Option Address → Out (Bytes × Nat)
  | none => .ok (b, offset)
  | some addr => do
      let b ← modifyAt b offset addr.len (copyAddr addr)
      .ok (b, offset + addr.len)

/-- `write_fields`, addressing.rs:451-500 -/
def writeFields (b : Bytes) (r : AddressingFieldsRepr) : Out Bytes := do
  let (b, o) ← writePan b 0 r.dstPanId
  let (b, o) ← writeAddr b o r.dstAddress
  let (b, o) ← writePan b o r.srcPanId
  let (b, _) ← writeAddr b o r.srcAddress
  .ok b

end AddressingFields

namespace AddressingFieldsRepr

/-- `AddressingFieldsRepr::parse`, repr/addressing.rs:21-28 -/
def parse (af : AddressingFields) : Out AddressingFieldsRepr := do
  let dstPanId ← af.dstPanId
  let dstAddress ← af.dstAddress
  let srcPanId ← af.srcPanId
  let srcAddress ← af.srcAddress
  .ok { dstPanId, dstAddress, srcPanId, srcAddress }

/-- `AddressingFieldsRepr::validate`, repr/addressing.rs:31-46 -/
def validate (r : AddressingFieldsRepr) (fc : FrameControlRepr) : Out Unit :=
  if fc.frameType = .data ∧ r.dstPanId = none ∧ r.dstAddress = none ∧ r.srcPanId = none
      ∧ r.srcAddress = none then .err
  else .ok ()

/-- `AddressingFieldsRepr::buffer_len`, repr/addressing.rs:49-67 -/
def bufferLen (r : AddressingFieldsRepr) (fc : FrameControlRepr) : Out Nat := do
  let dl ← AddressingFields.modeLen fc.dstMode
  let sl ← AddressingFields.modeLen fc.srcMode
  .ok ((if r.dstPanId.isSome then 2 else 0) + dl + (if r.srcPanId.isSome then 2 else 0) + sl)

/-- `AddressingFieldsRepr::emit`, repr/addressing.rs:70-72: `todo!()`. -/
def emit (_ : AddressingFieldsRepr) (_ : AddressingFields) : Out Bytes := .panic

end AddressingFieldsRepr
end Dot15d4
