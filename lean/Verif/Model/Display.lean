import Verif.Model.Repr
import Verif.Model.Macro

/-!
# The text shown by `{}` (the `Display` implementations of dot15d4-frame)

Text is a list of pieces, in order: literal text, and the values shown.  Simplified: how a number, an
address, a duration (hundredths of a millisecond, as `f32`), an enumeration (`{:?}`) or a byte slice
(`{:0x?}`) is spelled is not modelled, and writing to the formatter does not fail.
-/

namespace Dot15d4.Display
open Out

/-- A piece of text. -/
inductive Piece where
  | lit (s : String)
  | number (n : Nat)
  | hex (n : BitVec 16)
  | address (a : Address)
  | duration (d : Duration)
  | bytes (b : Bytes)
  /-- `{:?}` of `SimplifiedSuperframeSpecification::new(…)`: the bytes wrapped, or the error. -/
  | superframe (b : Option Bytes)
  | linkOptions (b : Byte)
  | frameType (t : FrameType)
  | mode (m : AddressingMode)
  | version (v : FrameVersion)
  | headerId (id : HeaderElementId)
  | groupId (id : PayloadGroupId)
  | shortId (id : NestedSubIdShort)
  | longId (id : NestedSubIdLong)
  deriving DecidableEq

/-- What a formatter has received. -/
abbrev Text := List Piece

/-- `b as usize`. -/
def bit (b : Bool) : Piece := .number (if b then 1 else 0)

/-- `writeln!(f, "label{}", v)`. -/
def line (label : String) (v : Piece) : Text := [.lit label, v, .lit "\n"]

/-- `Display for FrameControl` (frame_control.rs:253-284). -/
def frameControl (fc : Bytes) : Out Text := do
  let ty ← FrameControl.frameType fc
  let sec ← FrameControl.securityEnabled fc
  let pending ← FrameControl.framePending fc
  let ack ← FrameControl.ackRequest fc
  let comp ← FrameControl.panIdCompression fc
  let sup ← FrameControl.seqNoSuppression fc
  let ie ← FrameControl.iePresent fc
  let dst ← FrameControl.dstMode fc
  let src ← FrameControl.srcMode fc
  let version ← FrameControl.frameVersion fc
  .ok ([.lit "Frame Control\n"] ++ line "  type: " (.frameType ty) ++
    line "  security enabled: " (bit sec) ++ line "  frame pending: " (bit pending) ++
    line "  ack request: " (bit ack) ++ line "  pan id compression: " (bit comp) ++
    line "  sequence number suppression: " (bit sup) ++
    line "  information elements present: " (bit ie) ++
    line "  dst addressing mode: " (.mode dst) ++ line "  src addressing mode: " (.mode src) ++
    line "  frame version: " (.version version))

/-- `if let Some(v) = … { writeln!(f, "  label: {}", v) }`. -/
def optLine {α : Type} (label : String) (p : α → Piece) : Option α → Text
  | none => []
  | some a => line label (p a)

/-- `Display for AddressingFields` (addressing.rs:425-447). -/
def addressing (af : AddressingFields) : Out Text := do
  let dp ← af.dstPanId
  let d ← af.dstAddress
  let sp ← af.srcPanId
  let s ← af.srcAddress
  .ok ([.lit "Addressing Fields\n"] ++ optLine "  dst pan id: " .hex dp ++
    optLine "  dst address: " .address d ++ optLine "  src pan id: " .hex sp ++
    optLine "  src address: " .address s)

/-- `Display for HeaderElementId` (ie/headers.rs:196-203). -/
def headerId : HeaderElementId → Piece
  | .timeCorrection => .lit "Time Correction"
  | id => .headerId id

/-- `Display for TimeCorrection` (ie/headers.rs:412-421). -/
def timeCorrection (tc : TimeCorrection) : Out Text := do
  let t ← tc.timeCorrection
  let n ← tc.nack
  .ok [.duration t, .lit ", nack: ", bit n]

/-- `write!(f, "{:?}({:0x?})", id, self.content())`. -/
def raw (id : Piece) (c : Bytes) : Text := [id, .lit "(", .bytes c, .lit ")"]

/-- `Display for HeaderInformationElement` (ie/headers.rs:101-124). -/
def header (ie : HeaderIe) : Out Text := do
  let id ← ie.elementId
  match id with
  | .headerTermination1 => .ok [.headerId id]
  | .headerTermination2 => .ok [.headerId id]
  | .simplifiedSuperframeSpecification => do
    let c ← HeaderIe.content ie
    let s ← (Macro.new Macro.simplifiedSuperframeSpecification c).toOption
    .ok [headerId id, .lit " ", .superframe s]
  | .timeCorrection => do
    let c ← HeaderIe.content ie
    match TimeCorrection.new c with
    | .ok tc => do .ok ([headerId id, .lit " "] ++ (← timeCorrection tc))
    | .err => do .ok (raw (.headerId id) (← HeaderIe.content ie))
    | .panic => .panic
  | id => do .ok (raw (.headerId id) (← HeaderIe.content ie))

/-- `Display for NestedSubIdShort` (ie/nested.rs:325-334). -/
def shortId : NestedSubIdShort → Piece
  | .tschTimeslot => .lit "TSCH Timeslot"
  | .tschSlotframeAndLink => .lit "TSCH Slotframe and Link"
  | .tschSynchronization => .lit "TSCH Synchronization"
  | id => .shortId id

/-- `Display for NestedSubIdLong` (ie/nested.rs:357-364). -/
def longId : NestedSubIdLong → Piece
  | .channelHopping => .lit "Channel Hopping"
  | id => .longId id

/-- `Display for TschSynchronization` (ie/nested.rs:436-445). -/
def synchronization (d : TschSynchronization) : Out Text := do
  let asn ← d.absoluteSlotNumber
  let m ← d.joinMetric
  .ok [.lit "ASN: ", .number asn.toNat, .lit ", join metric: ", .number m.toNat]

/-- `Display for TschTimeslot` (ie/nested.rs:612-616). -/
def timeslot (d : TschTimeslot) : Out Text := do
  .ok [.lit "slot ID: ", .number (← d.id).toNat]

/-- `Display for TschSlotframeAndLink` (ie/nested.rs:930-934). -/
def slotframes (d : TschSlotframeAndLink) : Out Text := do
  .ok [.lit "#slotframes: ", .number (← d.numberOfSlotframes).toNat]

/-- `Display for SlotframeDescriptor` (ie/nested.rs:1036-1045). -/
def slotframe (d : SlotframeDescriptor) : Out Text := do
  let h ← d.handle
  let n ← d.links
  .ok [.lit "Slotframe Handle: ", .number h.toNat, .lit ", #links: ", .number n.toNat]

/-- `Display for LinkInformation` (ie/nested.rs:1158-1168). -/
def link (d : LinkInformation) : Out Text := do
  let t ← d.timeslot
  let c ← d.channelOffset
  let o ← d.linkOptions
  .ok [.lit "Timeslot: ", .number t.toNat, .lit ", Channel Offset: ", .number c.toNat,
    .lit ", Link Options: ", .linkOptions o]

/-- `Display for ChannelHopping` (ie/nested.rs:1291-1295). -/
def channelHopping (d : ChannelHopping) : Out Text := do
  .ok [.lit "sequence ID: ", .number (← d.hoppingSequenceId).toNat]

/-- `let Ok(x) = T::new(self.content()) else { return write!(f, "  {id}") }; write!(f, "  {id} {x}")`. -/
def named (id : Piece) (x : Out Bytes) (show' : Bytes → Out Text) : Out Text :=
  match x with
  | .ok x => do .ok ([.lit "  ", id, .lit " "] ++ (← show' x))
  | .err => .ok [.lit "  ", id]
  | .panic => .panic

/-- `Display for NestedInformationElement` (ie/nested.rs:143-176). -/
def nested (ie : NestedIe) : Out Text := do
  match ← ie.subId with
  | .short .tschSynchronization => do
    named (shortId .tschSynchronization) (TschSynchronization.new (← NestedIe.content ie)) synchronization
  | .short .tschTimeslot => do
    named (shortId .tschTimeslot) (TschTimeslot.new (← NestedIe.content ie)) timeslot
  | .short .tschSlotframeAndLink => do
    named (shortId .tschSlotframeAndLink) (TschSlotframeAndLink.new (← NestedIe.content ie)) slotframes
  | .short id => do .ok ([.lit "  "] ++ raw (.shortId id) (← NestedIe.content ie))
  | .long .channelHopping => do
    named (longId .channelHopping) (ChannelHopping.new (← NestedIe.content ie)) channelHopping
  | .long id => do .ok ([.lit "  "] ++ raw (.longId id) (← NestedIe.content ie))

/-- `Display for PayloadInformationElement` (ie/payloads.rs:101-116); the loop over the nested
elements is run for at most `length + 1` items, which is more than there are. -/
def payload (ie : PayloadIe) : Out Text := do
  match ← ie.groupId with
  | .mlme => do
    let it ← PayloadIe.nestedIter ie
    let l ← forLoop nestedNext (fun i (acc : Text) => do
      .ok (false, acc ++ ([.lit "  "] ++ (← nested i) ++ [.lit "\n"]))) (it.data.length + 1) it []
    .ok ([.groupId .mlme, .lit "\n"] ++ l)
  | id => do .ok (raw (.groupId id) (← PayloadIe.content ie))

/-- `Display for TschTimeslotTimings` (ie/nested.rs:819-840): one line per timing; the padding is not
modelled. -/
def timings (t : TschTimeslotTimings) : Text :=
  line "cca_offset: " (.duration t.ccaOffset) ++ line "cca: " (.duration t.cca) ++
  line "tx offset: " (.duration t.txOffset) ++ line "rx offset: " (.duration t.rxOffset) ++
  line "tx ack delay: " (.duration t.txAckDelay) ++ line "rx ack delay: " (.duration t.rxAckDelay) ++
  line "rx wait: " (.duration t.rxWait) ++ line "ack wait: " (.duration t.ackWait) ++
  line "rx/tx: " (.duration t.rxTx) ++ line "max ack: " (.duration t.maxAck) ++
  line "max tx: " (.duration t.maxTx) ++ line "timeslot length: " (.duration t.timeslotLength)

end Dot15d4.Display
