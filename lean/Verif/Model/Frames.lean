import Verif.Model.Ie
import Verif.Model.Beacon

/-!
# Frames (dot15d4-frame/src/frames/)
-/

namespace Dot15d4
open Out

/-! ## Data frames (frames/data.rs) -/

/-- The bytes of a `DataFrame` (data.rs:11-13). -/
abbrev DataFrame := Bytes

namespace DataFrame

/-- `frame_control`: a reader over `&buffer[..2]` (data.rs:77-79). -/
def frameControl (b : DataFrame) : Out Bytes := sliceTo b 2

/-- `check_len` (data.rs:54-68). -/
def checkLen (b : DataFrame) : Out Bool :=
  if b.length < 2 ∨ b.length > 127 then .ok false
  else do
    let fc ← frameControl b
    let sup ← FrameControl.seqNoSuppression fc
    .ok (!(!sup && decide (b.length < 3)))

/-- `new` (data.rs:21-51). -/
def new (b : Bytes) : Out DataFrame := do
  if ← checkLen b then do
    let fc ← frameControl b
    if ← FrameControl.securityEnabled fc then .err
    else do
      let t ← FrameControl.frameType fc
      if t = .unknown then .err
      else do
        let v ← FrameControl.frameVersion fc
        if v = .unknown then .err
        else do
          let d ← FrameControl.dstMode fc
          if d = .unknown then .err
          else do
            let s ← FrameControl.srcMode fc
            if s = .unknown then .err else .ok b
  else .err

/-- `sequence_number` (data.rs:82-88). -/
def sequenceNumber (b : DataFrame) : Out (Option Byte) := do
  let fc ← frameControl b
  if ← FrameControl.seqNoSuppression fc then .ok none
  else do
    let x ← idx b 2
    .ok (some x)

/-- `addressing` (data.rs:91-99). -/
def addressing (b : DataFrame) : Out (Option AddressingFields) := do
  let fc ← frameControl b
  if ← FrameControl.seqNoSuppression fc then do
    let s ← sliceFrom b 2
    (AddressingFields.new s fc).toOption
  else do
    let s ← sliceFrom b 3
    (AddressingFields.new s fc).toOption

/-- `2 + !fc.sequence_number_suppression() as usize` plus the addressing length, as computed by
several accessors (data.rs:106-112, 126-131, 145-154, 228-233, 240-249). -/
def addrEnd (b : DataFrame) : Out Nat := do
  let fc ← frameControl b
  let sup ← FrameControl.seqNoSuppression fc
  let offset := 2 + if sup then 0 else 1
  match ← addressing b with
  | some af => do
    let n ← af.len
    .ok (offset + n)
  | none => .ok offset

/-- `auxiliary_security_header` (data.rs:102-120). -/
def auxSecHeader (b : DataFrame) : Out (Option AuxSecHeader) := do
  let fc ← frameControl b
  if ← FrameControl.securityEnabled fc then do
    let o ← addrEnd b
    let s ← sliceFrom b o
    .ok (some s)
  else .ok none

/-- `information_elements` (data.rs:123-137). -/
def informationElements (b : DataFrame) : Out (Option InformationElements) := do
  let fc ← frameControl b
  if ← FrameControl.iePresent fc then do
    let o ← addrEnd b
    let s ← sliceFrom b o
    (InformationElements.new s).toOption
  else .ok none

/-- The `+ security header + information elements` part of the offset of the payload
(data.rs:156-164). -/
def payloadOffset (b : DataFrame) : Out Nat := do
  let fc ← frameControl b
  let o ← addrEnd b
  let o ← (do
    if ← FrameControl.securityEnabled fc then do
      let h ← auxSecHeader b
      let h ← ofSome h
      let n ← AuxSecHeader.len h
      .ok (o + n)
    else .ok o : Out Nat)
  if ← FrameControl.iePresent fc then do
    match ← informationElements b with
    | some ie => do
      let n ← InformationElements.len ie
      .ok (o + n)
    | none => .ok o
  else .ok o

/-- `payload` (data.rs:142-171). -/
def payload (b : DataFrame) : Out (Option Bytes) := do
  let o ← payloadOffset b
  if b.length ≤ o then .ok none
  else do
    let s ← sliceFrom b o
    .ok (some s)

/-- `set_frame_control` (data.rs:177-189), the same calls as `FrameControlRepr::emit` on the
first two bytes. -/
def setFrameControl (b : Bytes) (r : FrameControlRepr) : Out Bytes :=
  modifyTo b 2 fun s => r.emit s

/-- `frame_control_mut().set_X(..)` (data.rs:192-194). -/
def frameControlMut (b : Bytes) (f : Bytes → Out Bytes) : Out Bytes := modifyTo b 2 f

/-- `set_sequence_number` (data.rs:197-203). -/
def setSequenceNumber (b : Bytes) (n : Byte) : Out Bytes := do
  let b ← modifyTo b 2 fun s => FrameControl.setSeqNoSuppression s false
  setIdx b 2 n

/-- `set_addressing_fields` (data.rs:207-213). -/
def setAddressingFields (b : Bytes) (r : AddressingFieldsRepr) : Out Bytes := do
  let fc ← frameControl b
  let sup ← FrameControl.seqNoSuppression fc
  modifyFrom b (2 + if sup then 0 else 1) fun s => AddressingFields.writeFields s r

/-- `set_payload` (data.rs:239-260). -/
def setPayload (b : Bytes) (p : Bytes) : Out Bytes := do
  let fc ← frameControl b
  let o ← addrEnd b
  let o ← (do
    if ← FrameControl.securityEnabled fc then do
      let h ← auxSecHeader b
      let h ← ofSome h
      let n ← AuxSecHeader.len h
      .ok (o + n)
    else .ok o : Out Nat)
  let o ← (do
    if ← FrameControl.iePresent fc then do
      let ie ← informationElements b
      let ie ← ofSome ie
      let n ← InformationElements.len ie
      .ok (o + n)
    else .ok o : Out Nat)
  modifyFrom b o fun s => copyFromSlice s p

end DataFrame

/-! ## Acknowledgments (frames/ack.rs) -/

/-- The bytes of an `Ack`. -/
abbrev Ack := Bytes

namespace Ack
/-- `new` with `check_len` (ack.rs:15-34). -/
def new (b : Bytes) : Out Ack := if b.length = 3 then .ok b else .err
/-- `frame_control` (ack.rs:42-44). -/
def frameControl (b : Ack) : Out Bytes := do
  let s ← sliceTo b 2
  (FrameControl.new s).unwrap
/-- `sequence_number` (ack.rs:47-49). -/
def sequenceNumber (b : Ack) : Out Byte := idx b 2
end Ack

/-- The bytes of an `EnhancedAck`. -/
abbrev EnhancedAck := Bytes

namespace EnhancedAck
/-- `new` (ack.rs:59-67): accepts everything. -/
def new (b : Bytes) : Out EnhancedAck := .ok b
/-- `frame_control` (ack.rs:80-82). -/
def frameControl (b : EnhancedAck) : Out Bytes := do
  let s ← sliceTo b 2
  (FrameControl.new s).unwrap
/-- `sequence_number` (ack.rs:85-91). -/
def sequenceNumber (b : EnhancedAck) : Out (Option Byte) := do
  let fc ← frameControl b
  if ← FrameControl.seqNoSuppression fc then .ok none
  else do
    let x ← idx b 2
    .ok (some x)
/-- `addressing` (ack.rs:94-100). -/
def addressing (b : EnhancedAck) : Out (Option AddressingFields) := do
  let fc ← frameControl b
  if ← FrameControl.seqNoSuppression fc then do
    let s ← sliceFrom b 2
    (AddressingFields.new s fc).toOption
  else do
    let s ← sliceFrom b 3
    (AddressingFields.new s fc).toOption
/-- The offset after the addressing fields (ack.rs:104-112, 125-133, 154-162). -/
def addrEnd (b : EnhancedAck) : Out Nat := do
  let fc ← frameControl b
  let sup ← FrameControl.seqNoSuppression fc
  let offset := 2 + if sup then 0 else 1
  match ← addressing b with
  | some af => do
    let n ← af.len
    .ok (offset + n)
  | none => .ok offset
/-- `auxiliary_security_header` (ack.rs:103-121). -/
def auxSecHeader (b : EnhancedAck) : Out (Option AuxSecHeader) := do
  let o ← addrEnd b
  let fc ← frameControl b
  if ← FrameControl.securityEnabled fc then do
    let s ← sliceFrom b o
    .ok (some s)
  else .ok none
/-- The offset after the security header (ack.rs:135-139, 164-168). -/
def secEnd (b : EnhancedAck) : Out Nat := do
  let o ← addrEnd b
  let fc ← frameControl b
  if ← FrameControl.securityEnabled fc then do
    match ← auxSecHeader b with
    | some h => do
      let n ← AuxSecHeader.len h
      .ok (o + n)
    | none => .ok o
  else .ok o
/-- `information_elements` (ack.rs:124-146): unwraps. -/
def informationElements (b : EnhancedAck) : Out (Option InformationElements) := do
  let o ← secEnd b
  let fc ← frameControl b
  if ← FrameControl.iePresent fc then do
    let s ← sliceFrom b o
    let ie ← (InformationElements.new s).unwrap
    .ok (some ie)
  else .ok none
/-- `payload` (ack.rs:151-177). -/
def payload (b : EnhancedAck) : Out (Option Bytes) := do
  let o ← secEnd b
  let fc ← frameControl b
  let o ← (do
    if ← FrameControl.iePresent fc then do
      match ← informationElements b with
      | some ie => do
        let n ← InformationElements.len ie
        .ok (o + n)
      | none => .ok o
    else .ok o : Out Nat)
  let s ← sliceFrom b o
  .ok (some s)
end EnhancedAck

/-! ## Enhanced beacons (frames/beacon.rs:450-603)

`EnhancedBeacon` has, line for line, the code of `DataFrame`; the definitions below repeat it so
that the two can be changed independently. -/

/-- The bytes of an `EnhancedBeacon`. -/
abbrev EnhancedBeacon := Bytes

namespace EnhancedBeacon
/-- `frame_control` (beacon.rs:509-511). -/
def frameControl (b : EnhancedBeacon) : Out Bytes := sliceTo b 2
/-- `check_len` (beacon.rs:488-502). -/
def checkLen (b : EnhancedBeacon) : Out Bool :=
  if b.length < 2 ∨ b.length > 127 then .ok false
  else do
    let fc ← frameControl b
    let sup ← FrameControl.seqNoSuppression fc
    .ok (!(!sup && decide (b.length < 3)))
/-- `new` (beacon.rs:456-486). -/
def new (b : Bytes) : Out EnhancedBeacon := do
  if ← checkLen b then do
    let fc ← frameControl b
    if ← FrameControl.securityEnabled fc then .err
    else do
      let t ← FrameControl.frameType fc
      if t = .unknown then .err
      else do
        let v ← FrameControl.frameVersion fc
        if v = .unknown then .err
        else do
          let d ← FrameControl.dstMode fc
          if d = .unknown then .err
          else do
            let s ← FrameControl.srcMode fc
            if s = .unknown then .err else .ok b
  else .err
/-- `sequence_number` (beacon.rs:514-520). -/
def sequenceNumber (b : EnhancedBeacon) : Out (Option Byte) := do
  let fc ← frameControl b
  if ← FrameControl.seqNoSuppression fc then .ok none
  else do
    let x ← idx b 2
    .ok (some x)
/-- `addressing` (beacon.rs:523-531). -/
def addressing (b : EnhancedBeacon) : Out (Option AddressingFields) := do
  let fc ← frameControl b
  if ← FrameControl.seqNoSuppression fc then do
    let s ← sliceFrom b 2
    (AddressingFields.new s fc).toOption
  else do
    let s ← sliceFrom b 3
    (AddressingFields.new s fc).toOption
/-- The offset after the addressing fields (beacon.rs:537-543, 557-562, 576-585). -/
def addrEnd (b : EnhancedBeacon) : Out Nat := do
  let fc ← frameControl b
  let sup ← FrameControl.seqNoSuppression fc
  let offset := 2 + if sup then 0 else 1
  match ← addressing b with
  | some af => do
    let n ← af.len
    .ok (offset + n)
  | none => .ok offset
/-- `auxiliary_security_header` (beacon.rs:533-551). -/
def auxSecHeader (b : EnhancedBeacon) : Out (Option AuxSecHeader) := do
  let fc ← frameControl b
  if ← FrameControl.securityEnabled fc then do
    let o ← addrEnd b
    let s ← sliceFrom b o
    .ok (some s)
  else .ok none
/-- `information_elements` (beacon.rs:554-568). -/
def informationElements (b : EnhancedBeacon) : Out (Option InformationElements) := do
  let fc ← frameControl b
  if ← FrameControl.iePresent fc then do
    let o ← addrEnd b
    let s ← sliceFrom b o
    (InformationElements.new s).toOption
  else .ok none
/-- The offset of the payload (beacon.rs:587-595). -/
def payloadOffset (b : EnhancedBeacon) : Out Nat := do
  let fc ← frameControl b
  let o ← addrEnd b
  let o ← (do
    if ← FrameControl.securityEnabled fc then do
      let h ← auxSecHeader b
      let h ← ofSome h
      let n ← AuxSecHeader.len h
      .ok (o + n)
    else .ok o : Out Nat)
  if ← FrameControl.iePresent fc then do
    match ← informationElements b with
    | some ie => do
      let n ← InformationElements.len ie
      .ok (o + n)
    | none => .ok o
  else .ok o
/-- `payload` (beacon.rs:573-602). -/
def payload (b : EnhancedBeacon) : Out (Option Bytes) := do
  let o ← payloadOffset b
  if b.length ≤ o then .ok none
  else do
    let s ← sliceFrom b o
    .ok (some s)
end EnhancedBeacon

/-! ## `Frame` (frames/mod.rs:93-260) -/

/-- `Frame` (frames/mod.rs:94-105). -/
inductive Frame
  | ack (b : Ack)
  | enhancedAck (b : EnhancedAck)
  | beacon (b : Beacon)
  | enhancedBeacon (b : EnhancedBeacon)
  | data (b : DataFrame)
  deriving DecidableEq, Repr

namespace Frame

/-- `Frame::new` (frames/mod.rs:109-136). -/
def new (b : Bytes) : Out Frame :=
  if b.length < 2 then .err
  else do
    let s ← sliceTo b 2
    let fc ← FrameControl.new s
    let t ← FrameControl.frameType fc
    let v ← FrameControl.frameVersion fc
    match t with
    | .ack =>
      match v with
      | .v2003 | .v2006 => do let a ← Ack.new b; .ok (.ack a)
      | .v2020 => do let a ← EnhancedAck.new b; .ok (.enhancedAck a)
      | .unknown => .err
    | .beacon =>
      match v with
      | .v2003 | .v2006 => do let a ← Beacon.new b; .ok (.beacon a)
      | .v2020 => do let a ← EnhancedBeacon.new b; .ok (.enhancedBeacon a)
      | .unknown => .err
    | .data => do let a ← DataFrame.new b; .ok (.data a)
    | _ => .err

/-- `frame_control` (frames/mod.rs:194-202). -/
def frameControl : Frame → Out Bytes
  | ack b => Ack.frameControl b
  | enhancedAck b => EnhancedAck.frameControl b
  | beacon b => Beacon.frameControl b
  | enhancedBeacon b => EnhancedBeacon.frameControl b
  | data b => DataFrame.frameControl b

/-- `sequence_number` (frames/mod.rs:205-213). -/
def sequenceNumber : Frame → Out (Option Byte)
  | ack b => do let n ← Ack.sequenceNumber b; .ok (some n)
  | enhancedAck b => EnhancedAck.sequenceNumber b
  | beacon b => do let n ← Beacon.sequenceNumber b; .ok (some n)
  | enhancedBeacon b => EnhancedBeacon.sequenceNumber b
  | data b => DataFrame.sequenceNumber b

/-- `addressing` (frames/mod.rs:216-224). -/
def addressing : Frame → Out (Option AddressingFields)
  | ack _ => .ok none
  | enhancedAck b => EnhancedAck.addressing b
  | beacon b => do let a ← Beacon.addressing b; .ok (some a)
  | enhancedBeacon b => EnhancedBeacon.addressing b
  | data b => DataFrame.addressing b

/-- `auxiliary_security_header` (frames/mod.rs:227-235). -/
def auxSecHeader : Frame → Out (Option AuxSecHeader)
  | ack _ => .ok none
  | enhancedAck b => EnhancedAck.auxSecHeader b
  | beacon b => Beacon.auxSecHeader b
  | enhancedBeacon b => EnhancedBeacon.auxSecHeader b
  | data b => DataFrame.auxSecHeader b

/-- `information_elements` (frames/mod.rs:238-246). -/
def informationElements : Frame → Out (Option InformationElements)
  | ack _ => .ok none
  | enhancedAck b => EnhancedAck.informationElements b
  | beacon _ => .ok none
  | enhancedBeacon b => EnhancedBeacon.informationElements b
  | data b => DataFrame.informationElements b

/-- `payload` (frames/mod.rs:251-259). -/
def payload : Frame → Out (Option Bytes)
  | ack _ => .ok none
  | enhancedAck b => EnhancedAck.payload b
  | beacon b => Beacon.payload b
  | enhancedBeacon b => EnhancedBeacon.payload b
  | data b => DataFrame.payload b

/-- `into_ack` (frames/mod.rs:142-147). -/
def intoAck : Frame → Out Bytes
  | ack b => .ok b
  | _ => .panic

/-- `into_enhanced_ack` (frames/mod.rs:153-158). -/
def intoEnhancedAck : Frame → Out Bytes
  | enhancedAck b => .ok b
  | _ => .panic

/-- `into_beacon` (frames/mod.rs:164-169). -/
def intoBeacon : Frame → Out Bytes
  | beacon b => .ok b
  | _ => .panic

/-- `into_enhanced_beacon` (frames/mod.rs:175-180). -/
def intoEnhancedBeacon : Frame → Out Bytes
  | enhancedBeacon b => .ok b
  | _ => .panic

/-- `into_data` (frames/mod.rs:186-191). -/
def intoData : Frame → Out Bytes
  | data b => .ok b
  | _ => .panic

end Frame

/-! ## Frames with a frame check sequence (frames/mod.rs:15-91)

The `crc` crate's table-driven computation is replaced by the bit-serial definition of the same
algorithm (`refin`, `refout`, polynomial 0x1021, so 0x8408 reflected; init and xorout zero). -/

/-- One bit step of the reflected CRC register. -/
def crcBit (c : BitVec 16) : BitVec 16 :=
  if c.getLsbD 0 then (c >>> 1) ^^^ 0x8408#16 else c >>> 1

/-- `n` bit steps. -/
def crcBits : Nat → BitVec 16 → BitVec 16
  | 0, c => c
  | n+1, c => crcBits n (crcBit c)

/-- One byte: xor it into the low byte, then eight bit steps. -/
def crcByte (c : BitVec 16) (b : Byte) : BitVec 16 := crcBits 8 (c ^^^ b.setWidth 16)

/-- `Crc::<u16>::new(&CRC_16_IEEE802154).checksum` (frames/mod.rs:52-62). -/
def crc16 (l : Bytes) : BitVec 16 := l.foldl crcByte 0#16

/-- The bytes of a `FrameWithFcs`. -/
abbrev FrameWithFcs := Bytes

namespace FrameWithFcs
/-- `check_len` (frames/mod.rs:37-43). -/
def checkLen (b : FrameWithFcs) : Bool := !decide (b.length < 2)
/-- `content` (frames/mod.rs:77-79); the subtraction underflows (panics) below two bytes. -/
def content (b : FrameWithFcs) : Out Bytes :=
  if b.length < 2 then .panic else sliceTo b (b.length - 2)
/-- `calculate_fcs` (frames/mod.rs:47-63). -/
def calculateFcs (b : FrameWithFcs) : Out (BitVec 16) := do
  let c ← content b
  .ok (crc16 c)
/-- `fcs` (frames/mod.rs:82-85). -/
def fcs (b : FrameWithFcs) : Out (BitVec 16) :=
  if b.length < 2 then .panic
  else do
    let b0 ← idx b (b.length - 2)
    let b1 ← idx b (b.length - 1)
    .ok (u16le b0 b1)
/-- `check_fcs` (frames/mod.rs:67-69). -/
def checkFcs (b : FrameWithFcs) : Out Bool := do
  let x ← calculateFcs b
  let y ← fcs b
  .ok (x == y)
/-- `new` (frames/mod.rs:22-34). -/
def new (b : Bytes) : Out FrameWithFcs :=
  if checkLen b then do
    if ← checkFcs b then .ok b else .err
  else .err
/-- `frame` (frames/mod.rs:88-90). -/
def frame (b : FrameWithFcs) : Out Frame := do
  let c ← content b
  Frame.new c
end FrameWithFcs

end Dot15d4
