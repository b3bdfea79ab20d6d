import Verif.Rust
/-!
# Frame Control field (dot15d4-frame/src/frame_control.rs) and its `Repr`
(dot15d4-frame/src/repr/frame_control.rs)
-/
namespace Dot15d4
open Out

/-- dot15d4-frame/src/frame_control.rs:9-26 -/
inductive FrameType
  | beacon | data | ack | macCommand | multipurpose | fragmentOrFrak | extended | unknown
  deriving DecidableEq, Repr

/-- `FrameType as u8`; frame_control.rs:9-26.  `Unknown` has no explicit discriminant, so it is
the previous one plus one, 8. -/
def FrameType.toU8 : FrameType → Byte
  | .beacon => 0 | .data => 1 | .ack => 2 | .macCommand => 3 | .multipurpose => 5
  | .fragmentOrFrak => 6 | .extended => 7 | .unknown => 8

/-- `impl From<u8> for FrameType`, frame_control.rs:28-41 -/
def FrameType.ofU8 (v : Byte) : FrameType :=
  if v = 0 then .beacon else if v = 1 then .data else if v = 2 then .ack
  else if v = 3 then .macCommand else if v = 5 then .multipurpose
  else if v = 6 then .fragmentOrFrak else if v = 7 then .extended else .unknown

/-- dot15d4-frame/src/frame_control.rs:46-55 -/
inductive FrameVersion
  | v2003 | v2006 | v2020 | unknown
  deriving DecidableEq, Repr

/-- `FrameVersion as u8`, frame_control.rs:46-55 (`Unknown` = 3). -/
def FrameVersion.toU8 : FrameVersion → Byte
  | .v2003 => 0 | .v2006 => 1 | .v2020 => 2 | .unknown => 3

/-- `impl From<u8> for FrameVersion`, frame_control.rs:57-66 -/
def FrameVersion.ofU8 (v : Byte) : FrameVersion :=
  if v = 0 then .v2003 else if v = 1 then .v2006 else if v = 2 then .v2020 else .unknown

/-- dot15d4-frame/src/addressing.rs:162-171 -/
inductive AddressingMode
  | absent | short | extended | unknown
  deriving DecidableEq, Repr

/-- `AddressingMode as u8`, addressing.rs:162-171 (`Unknown` = 4). -/
def AddressingMode.toU8 : AddressingMode → Byte
  | .absent => 0 | .short => 2 | .extended => 3 | .unknown => 4

/-- `impl From<u8> for AddressingMode`, addressing.rs:185-194 -/
def AddressingMode.ofU8 (v : Byte) : AddressingMode :=
  if v = 0 then .absent else if v = 2 then .short else if v = 3 then .extended else .unknown

/-- `AddressingMode::size`, addressing.rs:175-182 -/
def AddressingMode.size : AddressingMode → Nat
  | .absent => 0 | .short => 2 | .extended => 8 | .unknown => 0

namespace FrameControl

/-- `FrameControl::new`, frame_control.rs:80-94.  The reader is its buffer. -/
def new (b : Bytes) : Out Bytes := if b.length ≥ 2 then .ok b else .err

/-! Word-level decoding; `w` is the little-endian word of the first two bytes. -/

/-- frame_control.rs:110 -/
def wFrameType (w : BitVec 16) : FrameType := .ofU8 ((w &&& 0b111#16).setWidth 8)
/-- frame_control.rs:116 -/
def wSecurity (w : BitVec 16) : Bool := (w >>> 3) &&& 1#16 == 1#16
/-- frame_control.rs:122 -/
def wPending (w : BitVec 16) : Bool := (w >>> 4) &&& 1#16 == 1#16
/-- frame_control.rs:128 -/
def wAck (w : BitVec 16) : Bool := (w >>> 5) &&& 1#16 == 1#16
/-- frame_control.rs:134 -/
def wPanComp (w : BitVec 16) : Bool := (w >>> 6) &&& 1#16 == 1#16
/-- frame_control.rs:140 -/
def wSeqSup (w : BitVec 16) : Bool := (w >>> 8) &&& 1#16 == 1#16
/-- frame_control.rs:146 -/
def wIe (w : BitVec 16) : Bool := (w >>> 9) &&& 1#16 == 1#16
/-- frame_control.rs:152-153 -/
def wDstMode (w : BitVec 16) : AddressingMode := .ofU8 (((w >>> 10) &&& 0b11#16).setWidth 8)
/-- frame_control.rs:159-160 -/
def wSrcMode (w : BitVec 16) : AddressingMode := .ofU8 (((w >>> 14) &&& 0b11#16).setWidth 8)
/-- frame_control.rs:166-167 -/
def wVersion (w : BitVec 16) : FrameVersion := .ofU8 (((w >>> 12) &&& 0b11#16).setWidth 8)

/-! Getters on the buffer. -/

/-- frame_control.rs:108-111 -/
def frameType (b : Bytes) : Out FrameType := do let w ← readU16 b; .ok (wFrameType w)
/-- frame_control.rs:114-117 -/
def securityEnabled (b : Bytes) : Out Bool := do let w ← readU16 b; .ok (wSecurity w)
/-- frame_control.rs:120-123 -/
def framePending (b : Bytes) : Out Bool := do let w ← readU16 b; .ok (wPending w)
/-- frame_control.rs:126-129 -/
def ackRequest (b : Bytes) : Out Bool := do let w ← readU16 b; .ok (wAck w)
/-- frame_control.rs:132-135 -/
def panIdCompression (b : Bytes) : Out Bool := do let w ← readU16 b; .ok (wPanComp w)
/-- frame_control.rs:138-141 -/
def seqNoSuppression (b : Bytes) : Out Bool := do let w ← readU16 b; .ok (wSeqSup w)
/-- frame_control.rs:144-147 -/
def iePresent (b : Bytes) : Out Bool := do let w ← readU16 b; .ok (wIe w)
/-- frame_control.rs:150-154 -/
def dstMode (b : Bytes) : Out AddressingMode := do let w ← readU16 b; .ok (wDstMode w)
/-- frame_control.rs:157-161 -/
def srcMode (b : Bytes) : Out AddressingMode := do let w ← readU16 b; .ok (wSrcMode w)
/-- frame_control.rs:164-168 -/
def frameVersion (b : Bytes) : Out FrameVersion := do let w ← readU16 b; .ok (wVersion w)

/-! Setters. -/

/-- frame_control.rs:173-178 -/
def setFrameType (b : Bytes) (t : FrameType) : Out Bytes :=
  updU16 b fun raw => (raw &&& ~~~0b111#16) ||| (t.toU8.setWidth 16 &&& 0b111#16)
/-- frame_control.rs:181-186 -/
def setSecurityEnabled (b : Bytes) (v : Bool) : Out Bytes :=
  updU16 b fun raw => raw ||| (boolU16 v <<< 3)
/-- frame_control.rs:189-194 -/
def setFramePending (b : Bytes) (v : Bool) : Out Bytes :=
  updU16 b fun raw => raw ||| (boolU16 v <<< 4)
/-- frame_control.rs:197-202 -/
def setAckRequest (b : Bytes) (v : Bool) : Out Bytes :=
  updU16 b fun raw => raw ||| (boolU16 v <<< 5)
/-- frame_control.rs:205-210 -/
def setPanIdCompression (b : Bytes) (v : Bool) : Out Bytes :=
  updU16 b fun raw => raw ||| (boolU16 v <<< 6)
/-- frame_control.rs:213-218 -/
def setSeqNoSuppression (b : Bytes) (v : Bool) : Out Bytes :=
  updU16 b fun raw => raw ||| (boolU16 v <<< 8)
/-- frame_control.rs:221-226 -/
def setIePresent (b : Bytes) (v : Bool) : Out Bytes :=
  updU16 b fun raw => raw ||| (boolU16 v <<< 9)
/-- frame_control.rs:229-234 -/
def setDstMode (b : Bytes) (m : AddressingMode) : Out Bytes :=
  updU16 b fun raw => (raw &&& ~~~(0b11#16 <<< 10)) ||| ((m.toU8.setWidth 16 &&& 0b11#16) <<< 10)
/-- frame_control.rs:237-242 -/
def setSrcMode (b : Bytes) (m : AddressingMode) : Out Bytes :=
  updU16 b fun raw => (raw &&& ~~~(0b11#16 <<< 14)) ||| ((m.toU8.setWidth 16 &&& 0b11#16) <<< 14)
/-- frame_control.rs:245-250 -/
def setFrameVersion (b : Bytes) (v : FrameVersion) : Out Bytes :=
  updU16 b fun raw => (raw &&& ~~~(0b11#16 <<< 12)) ||| ((v.toU8.setWidth 16 &&& 0b11#16) <<< 12)

end FrameControl

/-- dot15d4-frame/src/repr/frame_control.rs:7-28 -/
structure FrameControlRepr where
  frameType : FrameType
  securityEnabled : Bool
  framePending : Bool
  ackRequest : Bool
  panIdCompression : Bool
  seqNoSuppression : Bool
  iePresent : Bool
  dstMode : AddressingMode
  srcMode : AddressingMode
  frameVersion : FrameVersion
  deriving DecidableEq, Repr

namespace FrameControlRepr
open FrameControl

/-- `FrameControlRepr::parse`, repr/frame_control.rs:32-45 -/
def parse (b : Bytes) : Out FrameControlRepr := do
  let frameType ← FrameControl.frameType b
  let securityEnabled ← FrameControl.securityEnabled b
  let framePending ← FrameControl.framePending b
  let ackRequest ← FrameControl.ackRequest b
  let panIdCompression ← FrameControl.panIdCompression b
  let seqNoSuppression ← FrameControl.seqNoSuppression b
  let iePresent ← FrameControl.iePresent b
  let dstMode ← FrameControl.dstMode b
  let srcMode ← FrameControl.srcMode b
  let frameVersion ← FrameControl.frameVersion b
  .ok { frameType, securityEnabled, framePending, ackRequest, panIdCompression, seqNoSuppression,
        iePresent, dstMode, srcMode, frameVersion }

/-- `FrameControlRepr::buffer_len`, repr/frame_control.rs:48-50 -/
def bufferLen (_ : FrameControlRepr) : Nat := 2

/-- `FrameControlRepr::emit`, repr/frame_control.rs:53-64; also
`DataFrame::set_frame_control`, frames/data.rs:177-189 (same calls on `&mut buffer[..2]`). -/
def emit (r : FrameControlRepr) (b : Bytes) : Out Bytes := do
  let b ← setFrameType b r.frameType
  let b ← setSecurityEnabled b r.securityEnabled
  let b ← setFramePending b r.framePending
  let b ← setAckRequest b r.ackRequest
  let b ← setPanIdCompression b r.panIdCompression
  let b ← setSeqNoSuppression b r.seqNoSuppression
  let b ← setIePresent b r.iePresent
  let b ← setDstMode b r.dstMode
  let b ← setSrcMode b r.srcMode
  setFrameVersion b r.frameVersion

end FrameControlRepr
end Dot15d4
