import Verif.Model.Csma
import Verif.Props.Frames

/-!
# What the CSMA device should do with frames

The header of a frame, octet by octet, and what it means for the device: whose it is, whether it
is acknowledged, what is changed before it is sent.
-/

namespace Dot15d4.Spec
open Dot15d4 Props Csma

/-- Destination PAN, destination, source PAN, source. -/
structure Addressing where
  dstPan : Option (BitVec 16)
  dst : Address
  srcPan : Option (BitVec 16)
  src : Address

/-- The addressing fields on the air. -/
def Addressing.bytes (a : Addressing) : Bytes := Spec.addressing a.dstPan a.dst a.srcPan a.src

/-- A frame split into its frame control octets, its sequence number, its addressing fields and
what follows them. -/
structure Header where
  o0 : Byte
  o1 : Byte
  seq : Option Byte
  addressing : Option Addressing
  rest : Bytes

/-- The octets of the addressing fields, if there are any. -/
def addressingBytes : Option Addressing → Bytes
  | some a => a.bytes
  | none => []

/-- The frame with this header. -/
def Header.bytes (h : Header) : Bytes :=
  [h.o0, h.o1] ++ h.seq.toList ++ addressingBytes h.addressing ++ h.rest

/-- The frame control field. -/
def Header.fc (h : Header) : FrameControlRepr := decodeFc h.o0 h.o1

/-- The parts of the header are the ones its frame control field announces: a sequence number
unless suppressed, the addressing fields of the standard's tables.  There are none if the tables
have no entry, or if the frame is too short for the entry. -/
def Header.WellFormed (h : Header) : Prop :=
  h.seq.isSome = !h.fc.seqNoSuppression ∧
  match h.addressing with
  | some a => fcPans h.o0 h.o1 = some ⟨a.dstPan.isSome, a.srcPan.isSome⟩ ∧
      a.dst.mode = h.fc.dstMode ∧ a.src.mode = h.fc.srcMode
  | none => ∀ p, fcPans h.o0 h.o1 = some p → h.rest.length < fcAddrLen h.o0 h.o1 p

/-- The short address of a device: the last two octets of its address. -/
def shortOf (hw : Arr 8) : Arr 2 := ⟨hw.1.drop 6, by simp [hw.2]⟩

/-- A PAN id, if there is one, lets the frame through: it is ours or the broadcast PAN id. -/
def PanOk (ours : BitVec 16) : Option (BitVec 16) → Prop
  | none => True
  | some p => p = ours ∨ p = 0xffff

/-- A destination address names the device: broadcast, its short or its extended address. -/
def AddrOk (hw : Arr 8) (d : Address) : Prop :=
  d = .short ⟨[0xff, 0xff], rfl⟩ ∨ d = .short (shortOf hw) ∨ d = .extended hw

/-- A frame is for the device.  A frame without addressing fields is iff implicit broadcast is
configured. -/
def ForUs (ours : BitVec 16) (implicitBroadcast : Bool) (hw : Arr 8) (h : Header) : Prop :=
  match h.addressing with
  | none => implicitBroadcast = true
  | some a => PanOk ours a.dstPan ∧ AddrOk hw a.dst

/-- The same as intended: implicit broadcast is about every frame without destination address. -/
def ForUsIntended (ours : BitVec 16) (implicitBroadcast : Bool) (hw : Arr 8) (h : Header) : Prop :=
  match h.addressing with
  | none => implicitBroadcast = true
  | some a => PanOk ours a.dstPan ∧
      (AddrOk hw a.dst ∨ a.dst = .absent ∧ implicitBroadcast = true)

/-- The destination of a frame is the broadcast address. -/
def Broadcast (h : Header) : Prop :=
  ∃ a, h.addressing = some a ∧ a.dst = .short ⟨[0xff, 0xff], rfl⟩

/-- The frame has addressing fields, and its destination is not the broadcast address. (The code
counts a frame that only has a source among these.) -/
def NotBroadcast (h : Header) : Prop :=
  ∃ a, h.addressing = some a ∧ a.dst ≠ .short ⟨[0xff, 0xff], rfl⟩

/-- The frame has a destination, and it is a single device. -/
def Unicast (h : Header) : Prop :=
  ∃ a, h.addressing = some a ∧ a.dst ≠ .short ⟨[0xff, 0xff], rfl⟩ ∧ a.dst ≠ .absent

end Dot15d4.Spec

namespace Dot15d4.Spec
open Dot15d4 Props Csma

/-- The ack request bit is wanted in an outgoing frame: a data frame or MAC command, with the
option for its kind of destination switched on. -/
def WantsAck (cfg : Config) (h : Header) : Prop :=
  (h.fc.frameType = .data ∨ h.fc.frameType = .macCommand) ∧
    (NotBroadcast h ∧ cfg.ackUnicast = true ∨ Broadcast h ∧ cfg.ackBroadcast = true)

/-- The same as documented: only frames to a single device count as unicast. -/
def WantsAckIntended (cfg : Config) (h : Header) : Prop :=
  (h.fc.frameType = .data ∨ h.fc.frameType = .macCommand) ∧
    (Unicast h ∧ cfg.ackUnicast = true ∨ Broadcast h ∧ cfg.ackBroadcast = true)

/-- A received frame is passed on to the upper layers: it is ours (or the filter is off), and not
an acknowledgement. -/
def PassedOn (D : Device) (h : Header) : Prop :=
  (ForUs D.consts.panId D.consts.implicitBroadcast D.hardwareAddress h ∨
    D.config.ignoreNotForUs = false) ∧ h.fc.frameType ≠ .ack

/-- The device wants to acknowledge a frame it passed on. -/
def AcksFrame (cfg : Config) (h : Header) : Prop :=
  cfg.ackEverything = true ∨
    h.fc.ackRequest = true ∧
      (Broadcast h ∧ cfg.ackBroadcast = true ∨ NotBroadcast h ∧ cfg.ackUnicast = true)

/-- The immediate acknowledgement for a sequence number (IEEE 802.15.4 figure 7-9): frame type 2,
version 1, nothing else. -/
def immAck (seq : Byte) : Bytes := [0x02, 0x10, seq]

/-- A PAN id after the overwrite: the device's, where there is one and the option is on. -/
def overwritten (on : Bool) (ours : BitVec 16) (pan : Option (BitVec 16)) : Option (BitVec 16) :=
  match pan with
  | none => none
  | some p => some (if on then ours else p)

/-- The header after the PAN ids have been overwritten. -/
def Header.overwrite (D : Device) (h : Header) : Header :=
  { h with addressing := h.addressing.map fun a =>
      { a with
        dstPan := overwritten D.config.overwriteDstPanId D.consts.panId a.dstPan
        srcPan := overwritten D.config.overwriteSrcPanId D.consts.panId a.srcPan } }

/-- The device finds this frame in a buffer. -/
def Holds (F : RadioFormat) (buffer : Bytes) (h : Header) : Prop :=
  h.WellFormed ∧ Acceptable h.bytes ∧ ∃ n, F.frameLen buffer = some n ∧ F.data buffer n = h.bytes

/-! ## Receiving -/

/-- What is seen of the receive task: the radio received something; the task pauses; it sends; it
hands a buffer to the upper layer. -/
inductive RxEvent where
  | got (buffer : Arr 128)
  | pause (us : BitVec 32)
  | send (buffer : Arr 128) (cfg : TxConfig)
  | deliver (b : FrameBuffer)

/-- The frame part of a transmit buffer is the immediate acknowledgement for `seq`. -/
def CarriesAck (F : RadioFormat) (seq : Byte) (buffer : Arr 128) : Prop :=
  (buffer.1.drop F.tokenOff).take 3 = immAck seq

/-- What the device does with one received buffer: nothing if there is no frame to pass on in it.
Otherwise it delivers the buffer, and, concurrently, if the frame is to be acknowledged and has a
sequence number, pauses for half an AIFS and sends the acknowledgement, on its channel and without
waiting for a clear channel. -/
inductive ReceivedOne (D : Device) : List RxEvent → Prop where
  | dropped (b : Arr 128) : (∀ h, Holds D.format b.1 h → ¬ PassedOn D h) → ReceivedOne D [.got b]
  | delivered (b : Arr 128) (h : Header) : Holds D.format b.1 h → PassedOn D h →
      ¬ (AcksFrame D.config h ∧ h.seq.isSome = true) →
      ReceivedOne D [.got b, .deliver ⟨b, true⟩]
  | acknowledged (b : Arr 128) (h : Header) (seq : Byte) (a : Arr 128) (l : List RxEvent) : Holds D.format b.1 h → PassedOn D h →
      AcksFrame D.config h → h.seq = some seq → CarriesAck D.format seq a →
      Interleave [.pause (BitVec.ofInt 32 (D.consts.aifs.us.toInt.tdiv 2)),
        .send a ⟨D.config.channel, false⟩] [.deliver ⟨b, true⟩] l →
      ReceivedOne D (.got b :: l)

/-- A history of the receive task: some received buffers dealt with, the last one perhaps not
completely. -/
def ReceiveLog (D : Device) (l : List RxEvent) : Prop :=
  ∃ (rounds : List (List RxEvent)) (last : List RxEvent), l = rounds.flatten ++ last ∧ (∀ r ∈ rounds, ReceivedOne D r) ∧
    (last = [] ∨ ∃ rest, ReceivedOne D (last ++ rest))

/-- What is seen of the receive task in a record of calls. -/
def rxEvent : Ev CallAns → Option RxEvent
  | .ret (.rx, .radioReceive _) r => if r.1 = true then some (.got r.2) else none
  | .start (.rx, .delay us) => some (.pause us)
  | .start (.rx, .radioTransmit b cfg) => some (.send b cfg)
  | .start (.rx, .driverReceived b) => some (.deliver b)
  | _ => none

end Dot15d4.Spec
