import Verif.Model.Repr
import Verif.Spec.Repr
import Verif.Spec.Addressing

/-!
# Histories of the frame builder

A history is a constructor followed by any sequence of builder calls (every call is available on
every kind of builder: they are in `impl<T> FrameBuilder<T>`, repr/builder.rs:149-).  The
specification describes the built frame by "the last value given", "all elements given, in order".
-/

namespace Dot15d4.Spec
open Dot15d4 Out

/-- The constructors (repr/builder.rs:16-147). -/
inductive Start where
  | immAck (n : Byte)
  | ack
  | beacon
  | enhancedBeacon
  | data (p : Bytes)
  deriving DecidableEq, Repr

/-- The calls (repr/builder.rs:154-249). -/
inductive Call where
  | sequenceNumber (n : Byte)
  | dstPanId (p : BitVec 16)
  | srcPanId (p : BitVec 16)
  | dstAddress (a : Address)
  | srcAddress (a : Address)
  | headerElement (x : HeaderIeRepr)
  | payloadElement (x : PayloadIeRepr)
  | payload (p : Bytes)
  deriving DecidableEq, Repr

/-- Run a constructor of the model. -/
def Start.run : Start → FrameBuilder
  | .immAck n => FrameBuilder.newImmAck n
  | .ack => FrameBuilder.newAck
  | .beacon => FrameBuilder.newBeacon
  | .enhancedBeacon => FrameBuilder.newEnhancedBeacon
  | .data p => FrameBuilder.newData p

/-- Run a call of the model. -/
def Call.run (f : FrameBuilder) : Call → Out FrameBuilder
  | .sequenceNumber n => .ok (FrameBuilder.setSequenceNumber f n)
  | .dstPanId p => .ok (FrameBuilder.setDstPanId f p)
  | .srcPanId p => .ok (FrameBuilder.setSrcPanId f p)
  | .dstAddress a => .ok (FrameBuilder.setDstAddress f a)
  | .srcAddress a => .ok (FrameBuilder.setSrcAddress f a)
  | .headerElement x => FrameBuilder.addHeaderIe f x
  | .payloadElement x => FrameBuilder.addPayloadIe f x
  | .payload p => .ok (FrameBuilder.setPayload f p)

/-- Run a history up to, excluding, `finalize`. -/
def history (s : Start) (cs : List Call) : Out FrameBuilder := cs.foldlM Call.run s.run

/-- Run a history, then `finalize`. -/
def build (s : Start) (cs : List Call) : Out FrameRepr := do
  let f ← history s cs
  FrameBuilder.finalize f

/-! ## What the user asked for -/

/-- The last value given by the calls selected by `g`. -/
def lastOf {α : Type} (g : Call → Option α) (cs : List Call) : Option α := cs.reverse.findSome? g

/-- Selectors. -/
def Call.seq? : Call → Option Byte | .sequenceNumber n => some n | _ => none
@[inherit_doc Call.seq?] def Call.dstPan? : Call → Option (BitVec 16) | .dstPanId p => some p | _ => none
@[inherit_doc Call.seq?] def Call.srcPan? : Call → Option (BitVec 16) | .srcPanId p => some p | _ => none
@[inherit_doc Call.seq?] def Call.dst? : Call → Option Address | .dstAddress a => some a | _ => none
@[inherit_doc Call.seq?] def Call.src? : Call → Option Address | .srcAddress a => some a | _ => none
@[inherit_doc Call.seq?] def Call.payload? : Call → Option Bytes | .payload p => some p | _ => none
@[inherit_doc Call.seq?] def Call.header? : Call → Option HeaderIeRepr | .headerElement x => some x | _ => none
@[inherit_doc Call.seq?] def Call.element? : Call → Option PayloadIeRepr | .payloadElement x => some x | _ => none

/-- The sequence number asked for. -/
def wantedSeq (s : Start) (cs : List Call) : Option Byte :=
  (lastOf Call.seq? cs).or (match s with | .immAck n => some n | _ => none)
/-- The payload asked for. -/
def wantedPayload (s : Start) (cs : List Call) : Option Bytes :=
  (lastOf Call.payload? cs).or (match s with | .data p => some p | _ => none)
/-- The header elements asked for. -/
def wantedHeader (cs : List Call) : List HeaderIeRepr := cs.filterMap Call.header?
/-- The payload elements asked for. -/
def wantedElements (cs : List Call) : List PayloadIeRepr := cs.filterMap Call.element?
/-- Some element was asked for. -/
def wantsElements (cs : List Call) : Bool := !(wantedHeader cs).isEmpty || !(wantedElements cs).isEmpty
/-- Some address or PAN id was given. -/
def wantsAddressing (cs : List Call) : Bool :=
  (lastOf Call.dstPan? cs).isSome || (lastOf Call.srcPan? cs).isSome ||
  (lastOf Call.dst? cs).isSome || (lastOf Call.src? cs).isSome

/-- The type of frame a constructor is for. -/
def Start.type : Start → FrameType
  | .immAck _ | .ack => .ack
  | .beacon | .enhancedBeacon => .beacon
  | .data _ => .data
/-- The version: 2020 for the enhanced kinds and for every frame with elements. -/
def wantedVersion (s : Start) (cs : List Call) : FrameVersion :=
  if wantsElements cs then .v2020
  else match s with
    | .ack | .enhancedBeacon => .v2020
    | _ => .v2006

/-- The addressing mode for an optional address. -/
def modeOf : Option Address → AddressingMode
  | none => .absent
  | some a => a.mode

end Dot15d4.Spec
