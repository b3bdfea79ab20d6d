import Verif.Model.Frames

/-!
# The command line decoder (dot15d4-cat/src/lib.rs)

The text printed is modelled by its lines: the indentation and what the line shows.  Simplified: colours,
labels and number formats of a line are not modelled (formatting numbers, durations and addresses cannot
fail); a line is a constructor of `Line` carrying the values shown.  `Writer::decrease_indent` subtracts
from a `usize`: below zero it panics here, as in a debug build.
-/

namespace Dot15d4.Cat

/-- A line of output. -/
inductive Line where
  /-- An underlined or italic heading, or one of the fixed words `invalid`, `unimplemented`. -/
  | text (s : String)
  | frameType (enhanced : Bool) (t : FrameType)
  | bit (label : String) (v : Bool)
  | mode (label : String) (m : AddressingMode)
  | version (v : FrameVersion)
  | sequenceNumber (n : Byte)
  | panId (label : String) (id : BitVec 16)
  | address (label : String) (a : Address) (broadcast : Bool)
  | headerElement (id : HeaderElementId)
  | timeCorrection (t : Duration) (nack : Bool)
  | nestedElement (id : NestedSubId)
  | synchronization (asn : BitVec 64) (joinMetric : Byte)
  | timeslot (id : Byte)
  | timings (t : TschTimeslotTimings)
  | slotframes (n : Byte)
  | slotframe (handle links : Byte)
  | link (timeslot channelOffset : BitVec 16) (options : Byte)
  | channelHopping (id : Byte)
  | otherGroup (id : PayloadGroupId)
  | payload (b : Bytes)
  deriving DecidableEq

/-- `Writer`, dot15d4-cat/src/lib.rs:4-7. -/
structure Writer where
  lines : List (Nat × Line)
  indent : Nat
  deriving DecidableEq

/-- `writeln`, dot15d4-cat/src/lib.rs:22-30. -/
def Writer.writeln (w : Writer) (l : Line) : Writer := { w with lines := w.lines ++ [(w.indent, l)] }

/-- `increase_indent`, dot15d4-cat/src/lib.rs:14-16. -/
def Writer.increaseIndent (w : Writer) : Writer := { w with indent := w.indent + 2 }

/-- `decrease_indent`, dot15d4-cat/src/lib.rs:18-20. -/
def Writer.decreaseIndent (w : Writer) : Out Writer :=
  if w.indent < 2 then .panic else .ok { w with indent := w.indent - 2 }

/-- A `for` loop over a vector. -/
def forVec {α : Type} (body : α → Writer → Out Writer) : List α → Writer → Out Writer
  | [], w => .ok w
  | a :: l, w => do forVec body l (← body a w)

/-- A `for` loop over an iterator (run for at most `fuel` items, which is more than it has). -/
def forIter {σ α : Type} (next : σ → Out (Option α × σ)) (body : α → Writer → Out Writer) (fuel : Nat)
    (it : σ) (w : Writer) : Out Writer :=
  forLoop next (fun a w => do let w ← body a w; .ok (false, w)) fuel it w

/-- Frame control, dot15d4-cat/src/lib.rs:52-116. -/
def frameControl (fc : Bytes) (w : Writer) : Out Writer := do
  let w := w.writeln (.text "Frame Control")
  let w := w.increaseIndent
  let version ← FrameControl.frameVersion fc
  let ty ← FrameControl.frameType fc
  let w := w.writeln (.frameType (version == .v2020 && (ty == .beacon || ty == .ack)) ty)
  let w := w.writeln (.bit "security" (← FrameControl.securityEnabled fc))
  let w := w.writeln (.bit "frame pending" (← FrameControl.framePending fc))
  let w := w.writeln (.bit "ack request" (← FrameControl.ackRequest fc))
  let w := w.writeln (.bit "pan id compression" (← FrameControl.panIdCompression fc))
  let w := w.writeln (.bit "sequence number suppression" (← FrameControl.seqNoSuppression fc))
  let w := w.writeln (.bit "information elements present" (← FrameControl.iePresent fc))
  let w := w.writeln (.mode "dst addressing mode" (← FrameControl.dstMode fc))
  let w := w.writeln (.mode "src addressing mode" (← FrameControl.srcMode fc))
  let w := w.writeln (.version version)
  w.decreaseIndent

/-- Sequence number, dot15d4-cat/src/lib.rs:121-126. -/
def sequenceNumber (seq : Option Byte) (w : Writer) : Out Writer :=
  match seq with
  | none => .ok w
  | some seq => do
    let w := w.writeln (.text "Sequence Number")
    let w := w.increaseIndent
    let w := w.writeln (.sequenceNumber seq)
    w.decreaseIndent

/-- `if let Some(id) = … { w.writeln(…) }`, dot15d4-cat/src/lib.rs:135-137, 152-154. -/
def panId (label : String) (id : Option (BitVec 16)) (w : Writer) : Writer :=
  match id with
  | none => w
  | some id => w.writeln (.panId label id)

/-- `if let Some(addr) = … { w.writeln(…) }`, dot15d4-cat/src/lib.rs:139-150, 156-167. -/
def address (label : String) (a : Option Address) (w : Writer) : Writer :=
  match a with
  | none => w
  | some a => w.writeln (.address label a a.isBroadcast)

/-- Addressing, dot15d4-cat/src/lib.rs:131-169. -/
def addressing (addr : Option AddressingFields) (w : Writer) : Out Writer :=
  match addr with
  | none => .ok w
  | some addr => do
    let w := w.writeln (.text "Addressing")
    let w := w.increaseIndent
    let w := panId "dst pan id" (← addr.dstPanId) w
    let w := address "dst addr" (← addr.dstAddress) w
    let w := panId "src pan id" (← addr.srcPanId) w
    let w := address "src addr" (← addr.srcAddress) w
    w.decreaseIndent

/-- Auxiliary security header, dot15d4-cat/src/lib.rs:174-182. -/
def security (h : Option AuxSecHeader) (w : Writer) : Out Writer :=
  match h with
  | none => .ok w
  | some _ => do
    let w := w.writeln (.text "Auxiliary Security Header")
    let w := w.increaseIndent
    let w := w.writeln (.text "unimplementec")
    w.decreaseIndent

/-- The contents of a header element, dot15d4-cat/src/lib.rs:208-219. -/
def headerContent (id : HeaderElementId) (header : HeaderIe) (w : Writer) : Out Writer :=
  match id with
  | .timeCorrection => do
    let c ← HeaderIe.content header
    match ← (TimeCorrection.new c).toOption with
    | some tc => do
      let t ← TimeCorrection.timeCorrection tc
      let n ← TimeCorrection.nack tc
      .ok (w.writeln (.timeCorrection t n))
    | none => .ok (w.writeln (.text "invalid"))
  | _ => .ok (w.writeln (.text "unimplemented"))

/-- The lines of a header element, dot15d4-cat/src/lib.rs:202-221. -/
def headerBody (id : HeaderElementId) (header : HeaderIe) (w : Writer) : Out Writer :=
  if id.isTermination then .ok (w.writeln (.headerElement id))
  else do
    let w := w.writeln (.headerElement id)
    let w := w.increaseIndent
    let w ← headerContent id header w
    w.decreaseIndent

/-- A header element, dot15d4-cat/src/lib.rs:200-223. -/
def headerElement (header : HeaderIe) (w : Writer) : Out Writer := do
  let w := w.increaseIndent
  let id ← HeaderIe.elementId header
  let w ← headerBody id header w
  w.decreaseIndent

/-- The link of a slotframe, dot15d4-cat/src/lib.rs:293, ie/nested.rs:1158-1168. -/
def link (l : LinkInformation) (w : Writer) : Out Writer := do
  let t ← LinkInformation.timeslot l
  let c ← LinkInformation.channelOffset l
  let o ← LinkInformation.linkOptions l
  .ok (w.writeln (.link t c o))

/-- A slotframe, dot15d4-cat/src/lib.rs:285-295, ie/nested.rs:1036-1045. -/
def slotframe (d : SlotframeDescriptor) (w : Writer) : Out Writer := do
  let h ← SlotframeDescriptor.handle d
  let n ← SlotframeDescriptor.links d
  let w := w.writeln (.slotframe h n)
  let w := w.increaseIndent
  let it ← SlotframeDescriptor.linkIter d
  let w ← forIter linkNext link (it.data.length + 2) it w
  w.decreaseIndent

/-- The contents of a nested element, dot15d4-cat/src/lib.rs:254-311. -/
def nestedContent (id : NestedSubId) (nested : NestedIe) (w : Writer) : Out Writer :=
  match id with
  | .short .tschSynchronization => do
    let c ← NestedIe.content nested
    match ← (TschSynchronization.new c).toOption with
    | some sync => do
      let asn ← TschSynchronization.absoluteSlotNumber sync
      let jm ← TschSynchronization.joinMetric sync
      .ok (w.writeln (.synchronization asn jm))
    | none => .ok (w.writeln (.text "invalid"))
  | .short .tschTimeslot => do
    let c ← NestedIe.content nested
    match ← (TschTimeslot.new c).toOption with
    | some timeslot => do
      let id ← TschTimeslot.id timeslot
      let w := w.writeln (.timeslot id)
      if TschTimeslot.hasTimeslotTimings timeslot then do
        let t ← TschTimeslot.timeslotTimings timeslot
        .ok (w.writeln (.timings t))
      else .ok w
    | none => .ok (w.writeln (.text "invalid"))
  | .short .tschSlotframeAndLink => do
    let c ← NestedIe.content nested
    match ← (TschSlotframeAndLink.new c).toOption with
    | some sl => do
      let n ← TschSlotframeAndLink.numberOfSlotframes sl
      let w := w.writeln (.slotframes n)
      let it ← TschSlotframeAndLink.descriptorIter sl
      forIter slotframeNext slotframe (sl.length + 1) it w
    | none => .ok (w.writeln (.text "invalid"))
  | .long .channelHopping => do
    let c ← NestedIe.content nested
    match ← (ChannelHopping.new c).toOption with
    | some ch => do
      let id ← ChannelHopping.hoppingSequenceId ch
      .ok (w.writeln (.channelHopping id))
    | none => .ok (w.writeln (.text "invalid"))
  | _ => .ok (w.writeln (.text "unimplemented"))

/-- The lines of a nested element, dot15d4-cat/src/lib.rs:246-312. -/
def nestedBody (id : NestedSubId) (nested : NestedIe) (w : Writer) : Out Writer := do
  let w := w.writeln (.nestedElement id)
  let w := w.increaseIndent
  let w ← nestedContent id nested w
  w.decreaseIndent

/-- A nested element, dot15d4-cat/src/lib.rs:244-313. -/
def nestedElement (nested : NestedIe) (w : Writer) : Out Writer := do
  let w := w.increaseIndent
  let id ← NestedIe.subId nested
  let w ← nestedBody id nested w
  w.decreaseIndent

/-- The lines of a payload element, dot15d4-cat/src/lib.rs:239-317. -/
def payloadBody (id : PayloadGroupId) (payload : PayloadIe) (w : Writer) : Out Writer :=
  match id with
  | .mlme => do
    let w := w.writeln (.text "MLME")
    let it ← PayloadIe.nestedIter payload
    forIter nestedNext nestedElement (it.data.length + 1) it w
  | id => .ok (w.writeln (.otherGroup id))

/-- A payload element, dot15d4-cat/src/lib.rs:238-319. -/
def payloadElement (payload : PayloadIe) (w : Writer) : Out Writer := do
  let w := w.increaseIndent
  let id ← PayloadIe.groupId payload
  let w ← payloadBody id payload w
  w.decreaseIndent

/-- A group of elements, dot15d4-cat/src/lib.rs:195-226 and 233-323. -/
def elementGroup {α : Type} (heading : String) (body : α → Writer → Out Writer) (l : List α)
    (w : Writer) : Out Writer :=
  if l.isEmpty then .ok w
  else do
    let w := w.increaseIndent
    let w := w.writeln (.text heading)
    let w ← forVec body l w
    w.decreaseIndent

/-- Information elements, dot15d4-cat/src/lib.rs:187-324. -/
def informationElements (ie : Option InformationElements) (w : Writer) : Out Writer :=
  match ie with
  | none => .ok w
  | some ie => do
    let w := w.writeln (.text "Information Elements")
    let headers ← InformationElements.headerDrain ie
    let w ← elementGroup "Header Information Elements" headerElement headers.1 w
    let payloads ← InformationElements.payloadDrain ie
    elementGroup "Payload Information Elements" payloadElement payloads.1 w

/-- Payload, dot15d4-cat/src/lib.rs:329-333 (the indentation is not taken back). -/
def payload (p : Option Bytes) (w : Writer) : Writer :=
  match p with
  | none => w
  | some p => ((w.writeln (.text "Payload")).increaseIndent).writeln (.payload p)

/-- `FrameParser::parse`, dot15d4-cat/src/lib.rs:41-336. -/
def parse (input : Bytes) : Out (List (Nat × Line)) := do
  let frame ← (Frame.new input).unwrap
  let w : Writer := ⟨[], 0⟩
  let fc ← frame.frameControl
  let w ← frameControl fc w
  let w ← sequenceNumber (← frame.sequenceNumber) w
  let w ← addressing (← frame.addressing) w
  let w ← security (← frame.auxSecHeader) w
  let w ← informationElements (← frame.informationElements) w
  let w := payload (← frame.payload) w
  .ok w.lines

/-- `hex::decode` (hex 0.4.3, used at dot15d4-cat/src/lib.rs:37 and src/main.rs:20): an error for an odd
number of characters or one that is not a hexadecimal digit. -/
def hexDecode : List Char → Out Bytes
  | [] => .ok []
  | [_] => .err
  | a :: b :: l =>
    match Address.hexVal a, Address.hexVal b with
    | some x, some y => do
      let r ← hexDecode l
      .ok (BitVec.ofNat 8 (16 * x + y) :: r)
    | _, _ => .err

/-- `FrameParser::parse_hex`, dot15d4-cat/src/lib.rs:36-39, and the body of the program,
dot15d4-cat/src/main.rs:18-26. -/
def parseHex (input : List Char) : Out (List (Nat × Line)) := do
  let data ← (hexDecode input).unwrap
  parse data

end Dot15d4.Cat
