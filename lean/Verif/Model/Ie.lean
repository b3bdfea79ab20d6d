import Verif.Rust
import Verif.Model.Time

/-!
# Information element readers and writers (dot15d4-frame/src/ie/*.rs)

A reader `HeaderInformationElement<&[u8]>` etc. is modelled by the bytes it wraps.  An iterator
is a structure plus its `next`; `drain` runs an iterator to its end
(`while iter.next().is_some() {}`, `.map(..).sum()`) and `forLoop` is a `for` loop over it with
`break` and `?`.  Both carry a fuel; `Verif/Lemmas/Ie.lean` proves that the fuel used
(`data.len() + 1`) is always enough: the loop has ended because `next` returned `None`.
-/

namespace Dot15d4

/-! ## Iterators -/

/-- Run an iterator to its end, collecting the items; returns the final iterator state. -/
def drain {σ α : Type} (next : σ → Out (Option α × σ)) : Nat → σ → Out (List α × σ)
  | 0, s => .ok ([], s)
  | n+1, s => do
    let r ← next s
    match r with
    | (none, s') => .ok ([], s')
    | (some a, s') => do
      let t ← drain next n s'
      .ok (a :: t.1, t.2)

/-- `for a in iter { acc = body(a, acc); }` where `body` returns `(true, acc)` for `break`,
and may return `Err` (`?`) or panic. -/
def forLoop {σ α β : Type} (next : σ → Out (Option α × σ)) (body : α → β → Out (Bool × β)) :
    Nat → σ → β → Out β
  | 0, _, acc => .ok acc
  | n+1, s, acc => do
    let r ← next s
    match r with
    | (none, _) => .ok acc
    | (some a, s') => do
      let t ← body a acc
      if t.1 then .ok t.2 else forLoop next body n s' t.2

/-- `if vec.push(parse(&a)?).is_err() { break }` on a `heapless::Vec` of capacity `cap`. -/
def pushOrBreak {α β : Type} (cap : Nat) (parse : α → Out β) (a : α) (acc : List β) :
    Out (Bool × List β) := do
  let b ← parse a
  if acc.length < cap then .ok (false, acc ++ [b]) else .ok (true, acc)

/-- `if vec.push(parse(&a)?).is_err() { return Err(Error) }`. -/
def pushOrErr {α β : Type} (cap : Nat) (parse : α → Out β) (a : α) (acc : List β) :
    Out (Bool × List β) := do
  let b ← parse a
  if acc.length < cap then .ok (false, acc ++ [b]) else .err

/-! ## Header information elements -/

/-- ie/headers.rs:127-168.  Discriminants as written; `Unkown` follows `HeaderTermination2`. -/
inductive HeaderElementId where
  | vendorSpecificHeader | csl | rit | dsmePanDescriptor | rendezvousTime | timeCorrection
  | extendedDsmePanDescriptor | fragmentSequenceContextDescription
  | simplifiedSuperframeSpecification | simplifiedGtsSpecification | lecimCapabilities
  | trleDescriptor | rccCapabilities | rccnDescriptor | globalTime | da
  | headerTermination1 | headerTermination2 | unkown
  deriving DecidableEq, Repr

namespace HeaderElementId

/-- `id as u16` (ie/headers.rs:129-168). -/
def toU16 : HeaderElementId → BitVec 16
  | vendorSpecificHeader => 0x00 | csl => 0x1a | rit => 0x1b | dsmePanDescriptor => 0x1c
  | rendezvousTime => 0x1d | timeCorrection => 0x1e | extendedDsmePanDescriptor => 0x21
  | fragmentSequenceContextDescription => 0x22 | simplifiedSuperframeSpecification => 0x23
  | simplifiedGtsSpecification => 0x24 | lecimCapabilities => 0x25 | trleDescriptor => 0x26
  | rccCapabilities => 0x27 | rccnDescriptor => 0x28 | globalTime => 0x29 | da => 0x2b
  | headerTermination1 => 0x7e | headerTermination2 => 0x7f | unkown => 0x80

/-- `From<u8>` (ie/headers.rs:170-194). -/
def ofU8 (v : Byte) : HeaderElementId :=
  if v = 0x00 then vendorSpecificHeader else if v = 0x1a then csl else if v = 0x1b then rit
  else if v = 0x1c then dsmePanDescriptor else if v = 0x1d then rendezvousTime
  else if v = 0x1e then timeCorrection else if v = 0x21 then extendedDsmePanDescriptor
  else if v = 0x22 then fragmentSequenceContextDescription
  else if v = 0x23 then simplifiedSuperframeSpecification
  else if v = 0x24 then simplifiedGtsSpecification else if v = 0x25 then lecimCapabilities
  else if v = 0x26 then trleDescriptor else if v = 0x27 then rccCapabilities
  else if v = 0x28 then rccnDescriptor else if v = 0x29 then globalTime
  else if v = 0x2b then da else if v = 0x7e then headerTermination1
  else if v = 0x7f then headerTermination2 else unkown

/-- `matches!(id, HeaderTermination1 | HeaderTermination2)` (ie/headers.rs:229-232). -/
def isTermination : HeaderElementId → Bool
  | headerTermination1 => true
  | headerTermination2 => true
  | _ => false

end HeaderElementId

/-- The bytes wrapped by a `HeaderInformationElement<&[u8]>` (ie/headers.rs:8-12). -/
abbrev HeaderIe := Bytes

namespace HeaderIe

/-- Length field of the descriptor word: `as usize & 0b1111_1110` (ie/headers.rs:52). -/
def wLen (w : BitVec 16) : Nat := (w &&& 0x00fe#16).toNat
/-- Element id of the descriptor word: `(w >> 7) & 0xff` as `u8` (ie/headers.rs:58-59). -/
def wId (w : BitVec 16) : HeaderElementId :=
  .ofU8 (((w >>> 7) &&& 0x00ff#16).setWidth 8)

/-- `new` with `check_len` (ie/headers.rs:14-35). -/
def new (d : Bytes) : Out HeaderIe := if 2 ≤ d.length then .ok d else .err
/-- `len` (ie/headers.rs:49-53). -/
def len (d : HeaderIe) : Out Nat := do let w ← readU16 d; .ok (wLen w)
/-- `is_empty` (ie/headers.rs:43-47). -/
def isEmpty (d : HeaderIe) : Out Bool := do let n ← len d; .ok (n == 0)
/-- `element_id` (ie/headers.rs:55-60). -/
def elementId (d : HeaderIe) : Out HeaderElementId := do let w ← readU16 d; .ok (wId w)
/-- `content`: `&data[2..][..len()]` (ie/headers.rs:62-65). -/
def content (d : HeaderIe) : Out Bytes := do
  let s ← sliceFrom d 2
  let n ← len d
  sliceTo s n

/-- `clear`: fill with zeros (ie/headers.rs:69-72). -/
def clear (d : Bytes) : Bytes := List.replicate d.length 0
/-- `set_length` (ie/headers.rs:74-82). -/
def setLength (d : Bytes) (len : BitVec 16) : Out Bytes :=
  updU16 d fun w => (w &&& ~~~0x00fe#16) ||| (len &&& 0x00fe#16)
/-- `set_element_id` (ie/headers.rs:84-93). -/
def setElementId (d : Bytes) (id : HeaderElementId) : Out Bytes :=
  updU16 d fun w => (w &&& ~~~0x7f80#16) ||| ((id.toU16 <<< 7) &&& 0x7f80#16)
/-- A mutation through `content_mut`: `&mut data[2..]`, to the end of the buffer
(ie/headers.rs:95-98). -/
def contentMut (d : Bytes) (f : Bytes → Out Bytes) : Out Bytes := modifyFrom d 2 f

end HeaderIe

/-- Iterator state shared by the header, payload, nested and link iterators
(ie/headers.rs:205-211, ie/payloads.rs:145-151, ie/nested.rs:1297-1303, 1170-1175). -/
structure IeIter where
  data : Bytes
  offset : Nat
  terminated : Bool
  deriving DecidableEq, Repr

/-- `HeaderInformationElementsIterator::next` (ie/headers.rs:220-243).  `.ok()?` returns `None`
without touching the state. -/
def headerNext (s : IeIter) : Out (Option HeaderIe × IeIter) :=
  if s.terminated then .ok (none, s)
  else do
    let rest ← sliceFrom s.data s.offset
    let r ← (HeaderIe.new rest).toOption
    match r with
    | none => .ok (none, s)
    | some ie => do
      let id ← ie.elementId
      let n ← ie.len
      let offset := s.offset + (n + 2)
      .ok (some ie, { s with
        offset := offset,
        terminated := if offset ≥ s.data.length then true else id.isTermination })

/-! ## Payload information elements -/

/-- ie/payloads.rs:118-131; `Unknown` follows 0x0f. -/
inductive PayloadGroupId where
  | esdu | mlme | vendorSpecific | payloadTermination | unknown
  deriving DecidableEq, Repr

namespace PayloadGroupId

/-- `id as u16` (ie/payloads.rs:120-131). -/
def toU16 : PayloadGroupId → BitVec 16
  | esdu => 0x00 | mlme => 0x01 | vendorSpecific => 0x02 | payloadTermination => 0x0f
  | unknown => 0x10

/-- `From<u8>` (ie/payloads.rs:133-143). -/
def ofU8 (v : Byte) : PayloadGroupId :=
  if v = 0x00 then esdu else if v = 0x01 then mlme else if v = 0x02 then vendorSpecific
  else if v = 0x0f then payloadTermination else unknown

end PayloadGroupId

/-- The bytes wrapped by a `PayloadInformationElement<&[u8]>` (ie/payloads.rs:4-8). -/
abbrev PayloadIe := Bytes

namespace PayloadIe

/-- Length field: `& 0b1111111111`, ten bits (ie/payloads.rs:43). -/
def wLen (w : BitVec 16) : Nat := (w &&& 0x03ff#16).toNat
/-- Group id: `(w >> 11) & 0b111`, three bits (ie/payloads.rs:49-50). -/
def wId (w : BitVec 16) : PayloadGroupId := .ofU8 (((w >>> 11) &&& 0x0007#16).setWidth 8)

/-- `new` with `check_len` (ie/payloads.rs:10-32). -/
def new (d : Bytes) : Out PayloadIe := if 2 ≤ d.length then .ok d else .err
/-- `length` (ie/payloads.rs:40-44). -/
def length (d : PayloadIe) : Out Nat := do let w ← readU16 d; .ok (wLen w)
/-- `group_id` (ie/payloads.rs:46-51). -/
def groupId (d : PayloadIe) : Out PayloadGroupId := do let w ← readU16 d; .ok (wId w)
/-- `content` (ie/payloads.rs:53-56). -/
def content (d : PayloadIe) : Out Bytes := do
  let s ← sliceFrom d 2
  let n ← length d
  sliceTo s n

/-- `clear` (ie/payloads.rs:72-75). -/
def clear (d : Bytes) : Bytes := List.replicate d.length 0
/-- `set_length` (ie/payloads.rs:77-84). -/
def setLength (d : Bytes) (len : BitVec 16) : Out Bytes :=
  updU16 d fun w => (w &&& ~~~0x07ff#16) ||| (len &&& 0x07ff#16)
/-- `set_group_id` (ie/payloads.rs:86-93). -/
def setGroupId (d : Bytes) (id : PayloadGroupId) : Out Bytes :=
  updU16 d fun w => (w &&& ~~~0x7800#16) ||| (id.toU16 <<< 11) ||| 0x8000#16
/-- A mutation through `content_mut`: `&mut data[2..]`, to the end of the buffer
(ie/payloads.rs:95-98). -/
def contentMut (d : Bytes) (f : Bytes → Out Bytes) : Out Bytes := modifyFrom d 2 f

end PayloadIe

/-- `PayloadInformationElementsIterator::next` (ie/payloads.rs:160-183). -/
def payloadNext (s : IeIter) : Out (Option PayloadIe × IeIter) :=
  if s.terminated then .ok (none, s)
  else do
    let rest ← sliceFrom s.data s.offset
    let r ← (PayloadIe.new rest).toOption
    match r with
    | none => .ok (none, { s with terminated := true })
    | some ie => do
      let id ← ie.groupId
      let n ← ie.length
      let offset := s.offset + (n + 2)
      .ok (some ie, { s with
        offset := offset,
        terminated := if offset ≥ s.data.length then true
          else id == PayloadGroupId.payloadTermination })

/-! ## The two lists -/

/-- The bytes wrapped by an `InformationElements<&[u8]>` (ie/mod.rs:14-18). -/
abbrev InformationElements := Bytes

namespace InformationElements

/-- `header_information_elements` (ie/mod.rs:79-86). -/
def headerIter (d : InformationElements) : IeIter := ⟨d, 0, d.isEmpty⟩

/-- Sum of `ie.len() + 2` over the elements (the closure of ie/mod.rs:90-93). -/
def sumLens : List HeaderIe → Out Nat
  | [] => .ok 0
  | ie :: l => do
    let n ← ie.len
    let m ← sumLens l
    .ok (n + 2 + m)

/-- Run the header iterator to its end. -/
def headerDrain (d : InformationElements) : Out (List HeaderIe × IeIter) :=
  drain headerNext (d.length + 1) (headerIter d)

/-- `payload_information_elements` (ie/mod.rs:88-102): panics if the header elements extend past
the buffer. -/
def payloadIter (d : InformationElements) : Out IeIter := do
  let h ← headerDrain d
  let start ← sumLens h.1
  let rest ← sliceFrom d start
  .ok ⟨rest, 0, decide (start ≥ d.length)⟩

/-- Run the payload iterator to its end. -/
def payloadDrain (d : InformationElements) : Out (List PayloadIe × IeIter) := do
  let it ← payloadIter d
  drain payloadNext (d.length + 1) it

/-- `check_len` (ie/mod.rs:37-55). -/
def checkLen (d : InformationElements) : Out Bool := do
  let h ← headerDrain d
  let len := h.2.offset
  if len > d.length then .ok false
  else do
    let p ← payloadDrain d
    .ok (decide (d.length ≥ len + p.2.offset))

/-- `new` (ie/mod.rs:20-35). -/
def new (d : Bytes) : Out InformationElements := do
  let c ← checkLen d
  if c then .ok d else .err

/-- `len` (ie/mod.rs:63-77). -/
def len (d : InformationElements) : Out Nat := do
  let h ← headerDrain d
  let p ← payloadDrain d
  .ok (h.2.offset + p.2.offset)

end InformationElements

/-! ## Nested information elements -/

/-- ie/nested.rs:211-282; `Unkown` follows `Srm = 0x46`. -/
inductive NestedSubIdShort where
  | tschSynchronization | tschSlotframeAndLink | tschTimeslot | hoppingTiming
  | enhancedBeaconFilter | macMetrics | allMacMetrics | coexistenceSpecification
  | sunDeviceCapabilities | sunFskGenericPhy | modeSwitchParameter | phyParameterChange
  | oQpskPhyMode | pcaAllocation | lecimDsssOperatingMode | lecimFskOperatingMode
  | tvwsPhyOperatingMode | tvwsDeviceCapabilities | tvwsDeviceCategory
  | tvwsDeviceIdentification | tvwsDeviceLocation | tvwsChannelInformationQuery
  | tvwsChannelInformationSource | ctm | timestamp | timestampDifference | tmctpSpecification
  | rccPhyOperatingMode | linkMargin | rsGfskDeviceCapabilities | multiPhy | vendorSpecific
  | srm | unkown
  deriving DecidableEq, Repr

namespace NestedSubIdShort

/-- `id as u16` (ie/nested.rs:213-282). -/
def toU16 : NestedSubIdShort → BitVec 16
  | tschSynchronization => 0x1a | tschSlotframeAndLink => 0x1b | tschTimeslot => 0x1c
  | hoppingTiming => 0x1d | enhancedBeaconFilter => 0x1e | macMetrics => 0x1f
  | allMacMetrics => 0x20 | coexistenceSpecification => 0x21 | sunDeviceCapabilities => 0x22
  | sunFskGenericPhy => 0x23 | modeSwitchParameter => 0x24 | phyParameterChange => 0x25
  | oQpskPhyMode => 0x26 | pcaAllocation => 0x27 | lecimDsssOperatingMode => 0x28
  | lecimFskOperatingMode => 0x29 | tvwsPhyOperatingMode => 0x2b
  | tvwsDeviceCapabilities => 0x2c | tvwsDeviceCategory => 0x2d
  | tvwsDeviceIdentification => 0x2e | tvwsDeviceLocation => 0x2f
  | tvwsChannelInformationQuery => 0x30 | tvwsChannelInformationSource => 0x31 | ctm => 0x32
  | timestamp => 0x33 | timestampDifference => 0x34 | tmctpSpecification => 0x35
  | rccPhyOperatingMode => 0x36 | linkMargin => 0x37 | rsGfskDeviceCapabilities => 0x38
  | multiPhy => 0x39 | vendorSpecific => 0x40 | srm => 0x46 | unkown => 0x47

/-- `From<u8>` (ie/nested.rs:284-323). -/
def ofU8 (v : Byte) : NestedSubIdShort :=
  if v = 0x1a then tschSynchronization else if v = 0x1b then tschSlotframeAndLink
  else if v = 0x1c then tschTimeslot else if v = 0x1d then hoppingTiming
  else if v = 0x1e then enhancedBeaconFilter else if v = 0x1f then macMetrics
  else if v = 0x20 then allMacMetrics else if v = 0x21 then coexistenceSpecification
  else if v = 0x22 then sunDeviceCapabilities else if v = 0x23 then sunFskGenericPhy
  else if v = 0x24 then modeSwitchParameter else if v = 0x25 then phyParameterChange
  else if v = 0x26 then oQpskPhyMode else if v = 0x27 then pcaAllocation
  else if v = 0x28 then lecimDsssOperatingMode else if v = 0x29 then lecimFskOperatingMode
  else if v = 0x2b then tvwsPhyOperatingMode else if v = 0x2c then tvwsDeviceCapabilities
  else if v = 0x2d then tvwsDeviceCategory else if v = 0x2e then tvwsDeviceIdentification
  else if v = 0x2f then tvwsDeviceLocation else if v = 0x30 then tvwsChannelInformationQuery
  else if v = 0x31 then tvwsChannelInformationSource else if v = 0x32 then ctm
  else if v = 0x33 then timestamp else if v = 0x34 then timestampDifference
  else if v = 0x35 then tmctpSpecification else if v = 0x36 then rccPhyOperatingMode
  else if v = 0x37 then linkMargin else if v = 0x38 then rsGfskDeviceCapabilities
  else if v = 0x39 then multiPhy else if v = 0x40 then vendorSpecific
  else if v = 0x46 then srm else unkown

end NestedSubIdShort

/-- ie/nested.rs:336-345; `Unkown` follows 0x09. -/
inductive NestedSubIdLong where
  | vendorSpecificNested | channelHopping | unkown
  deriving DecidableEq, Repr

namespace NestedSubIdLong

/-- `id as u16` (ie/nested.rs:338-345). -/
def toU16 : NestedSubIdLong → BitVec 16
  | vendorSpecificNested => 0x08 | channelHopping => 0x09 | unkown => 0x0a

/-- `From<u8>` (ie/nested.rs:347-355). -/
def ofU8 (v : Byte) : NestedSubIdLong :=
  if v = 0x08 then vendorSpecificNested else if v = 0x09 then channelHopping else unkown

end NestedSubIdLong

/-- ie/nested.rs:180-187. -/
inductive NestedSubId where
  | short (id : NestedSubIdShort)
  | long (id : NestedSubIdLong)
  deriving DecidableEq, Repr

/-- `NestedSubId::is_short` (ie/nested.rs:200-203). -/
def NestedSubId.isShort : NestedSubId → Bool
  | .short _ => true
  | .long _ => false

/-- The bytes wrapped by a `NestedInformationElement<&[u8]>` (ie/nested.rs:20-23). -/
abbrev NestedIe := Bytes

namespace NestedIe

/-- Type bit of the descriptor word (ie/nested.rs:90). -/
def wLong (w : BitVec 16) : Bool := ((w >>> 15) &&& 1#16) == 1#16
/-- Length field: 10 bits when long, 7 bits when short (ie/nested.rs:64-68). -/
def wLen (w : BitVec 16) : Nat :=
  if wLong w then (w &&& 0x03ff#16).toNat else (w &&& 0x007f#16).toNat
/-- Sub id: `(w >> 11) & 0b1111` when long, `(w >> 8) & 0b111111` when short
(ie/nested.rs:75-79). -/
def wSubId (w : BitVec 16) : NestedSubId :=
  if wLong w then .long (.ofU8 (((w >>> 11) &&& 0x000f#16).setWidth 8))
  else .short (.ofU8 (((w >>> 8) &&& 0x003f#16).setWidth 8))

/-- `is_long` (ie/nested.rs:87-91). -/
def isLong (d : NestedIe) : Out Bool := do let w ← readU16 d; .ok (wLong w)
/-- `length` (ie/nested.rs:61-69). -/
def length (d : NestedIe) : Out Nat := do let w ← readU16 d; .ok (wLen w)
/-- `sub_id` (ie/nested.rs:71-80). -/
def subId (d : NestedIe) : Out NestedSubId := do let w ← readU16 d; .ok (wSubId w)
/-- `content` (ie/nested.rs:93-96). -/
def content (d : NestedIe) : Out Bytes := do
  let s ← sliceFrom d 2
  let n ← length d
  sliceTo s n
/-- `new` with `check_len` (ie/nested.rs:25-53). -/
def new (d : Bytes) : Out NestedIe :=
  if d.length < 2 then .err
  else do
    let n ← length d
    if d.length ≥ n + 2 then .ok d else .err

/-- `clear` (ie/nested.rs:100-103). -/
def clear (d : Bytes) : Bytes := List.replicate d.length 0
/-- `mask` of `set_length` (ie/nested.rs:107-111). -/
def lenMask (id : NestedSubId) : BitVec 16 := if id.isShort then 0x00ff else 0x07ff
/-- `set_length` (ie/nested.rs:105-117). -/
def setLength (d : Bytes) (len : BitVec 16) (id : NestedSubId) : Out Bytes :=
  updU16 d fun w => (w &&& ~~~(lenMask id)) ||| (len &&& lenMask id)
/-- `mask` of `set_sub_id` (ie/nested.rs:121-125). -/
def idMask (id : NestedSubId) : BitVec 16 := if id.isShort then 0x7f00 else 0x7800
/-- The value or-ed in by `set_sub_id` (ie/nested.rs:130-133). -/
def idBits : NestedSubId → BitVec 16
  | .short id => id.toU16 <<< 8
  | .long id => (id.toU16 <<< 11) ||| 0x8000#16
/-- `set_sub_id` (ie/nested.rs:119-135). -/
def setSubId (d : Bytes) (id : NestedSubId) : Out Bytes :=
  updU16 d fun w => (w &&& ~~~(idMask id)) ||| idBits id
/-- A mutation through `content_mut`: `&mut data[2..]`, to the end of the buffer
(ie/nested.rs:137-140). -/
def contentMut (d : Bytes) (f : Bytes → Out Bytes) : Out Bytes := modifyFrom d 2 f

end NestedIe

/-- `NestedInformationElementsIterator::new` (ie/nested.rs:1305-1314). -/
def nestedIter (d : Bytes) : IeIter := ⟨d, 0, false⟩

/-- `NestedInformationElementsIterator::next` (ie/nested.rs:1316-1342). -/
def nestedNext (s : IeIter) : Out (Option NestedIe × IeIter) :=
  if s.terminated then .ok (none, s)
  else do
    let rest ← sliceFrom s.data s.offset
    let r ← (NestedIe.new rest).toOption
    match r with
    | none => .ok (none, { s with terminated := true })
    | some ie => do
      let n ← ie.length
      let len := n + 2
      let rest' ← sliceFrom s.data s.offset
      let d ← sliceTo rest' len
      let offset := s.offset + len
      .ok (some d, { s with
        offset := offset,
        terminated := if offset ≥ s.data.length then true else s.terminated })

/-- `PayloadInformationElement::nested_information_elements` (ie/payloads.rs:58-68): asserts the
MLME group. -/
def PayloadIe.nestedIter (d : PayloadIe) : Out IeIter := do
  let g ← d.groupId
  if g = .mlme then do
    let c ← d.content
    .ok (Dot15d4.nestedIter c)
  else .panic

/-! ## Time correction (ie/headers.rs:338-410) -/

/-- The bytes wrapped by a `TimeCorrection<&[u8]>` (ie/headers.rs:340-342). -/
abbrev TimeCorrection := Bytes

namespace TimeCorrection

/-- `new` (ie/headers.rs:350-364). -/
def new (d : Bytes) : Out TimeCorrection := if 2 ≤ d.length then .ok d else .err
/-- The word decoded by `time_correction`: shift left by 4 as `i16`, arithmetic shift right
(ie/headers.rs:381-382). -/
def wTime (w : BitVec 16) : I64 := (((w &&& 0x0fff#16) <<< 4).sshiftRight 4).signExtend 64
/-- `time_correction` (ie/headers.rs:378-383). -/
def timeCorrection (d : TimeCorrection) : Out Duration := do
  let w ← readU16 d
  .ok (.fromUs (wTime w))
/-- `nack` (ie/headers.rs:385-389). -/
def nack (d : TimeCorrection) : Out Bool := do
  let w ← readU16 d
  .ok ((w &&& 0x8000#16) != 0#16)
/-- The word written by `set_time_correction`: `((us as i16) << 4) >> 4 & 0x0fff`
(ie/headers.rs:395). -/
def wSetTime (us : I64) : BitVec 16 := ((us.setWidth 16 <<< 4).sshiftRight 4) &&& 0x0fff#16
/-- `set_time_correction` (ie/headers.rs:393-398): overwrites both bytes. -/
def setTimeCorrection (d : Bytes) (t : Duration) : Out Bytes := updU16 d fun _ => wSetTime t.asUs
/-- `set_nack` (ie/headers.rs:400-409). -/
def setNack (d : Bytes) (nack : Bool) : Out Bytes :=
  updU16 d fun w => if nack then w ||| 0x8000#16 else w &&& 0x7fff#16

end TimeCorrection

/-! ## TSCH synchronization (ie/nested.rs:366-434) -/

/-- The bytes wrapped by a `TschSynchronization<&[u8]>`. -/
abbrev TschSynchronization := Bytes

namespace TschSynchronization

/-- `new` (ie/nested.rs:379-394). -/
def new (d : Bytes) : Out TschSynchronization := if 6 ≤ d.length then .ok d else .err
/-- `absolute_slot_number` (ie/nested.rs:402-411), in `u64`. -/
def absoluteSlotNumber (d : TschSynchronization) : Out (BitVec 64) := do
  let b0 ← idx d 0
  let b1 ← idx d 1
  let b2 ← idx d 2
  let b3 ← idx d 3
  let b4 ← idx d 4
  .ok (b0.setWidth 64 + (b1.setWidth 64 <<< 8) + (b2.setWidth 64 <<< 16)
    + (b3.setWidth 64 <<< 24) + (b4.setWidth 64 <<< 32))
/-- `join_metric` (ie/nested.rs:413-416). -/
def joinMetric (d : TschSynchronization) : Out Byte := idx d 5
/-- `set_absolute_slot_number` (ie/nested.rs:420-428). -/
def setAbsoluteSlotNumber (d : Bytes) (asn : BitVec 64) : Out Bytes := do
  let d ← setIdx d 0 ((asn &&& 0xff#64).setWidth 8)
  let d ← setIdx d 1 (((asn >>> 8) &&& 0xff#64).setWidth 8)
  let d ← setIdx d 2 (((asn >>> 16) &&& 0xff#64).setWidth 8)
  let d ← setIdx d 3 (((asn >>> 24) &&& 0xff#64).setWidth 8)
  setIdx d 4 (((asn >>> 32) &&& 0xff#64).setWidth 8)
/-- `set_join_metric` (ie/nested.rs:430-433). -/
def setJoinMetric (d : Bytes) (m : Byte) : Out Bytes := setIdx d 5 m

end TschSynchronization

/-! ## TSCH timeslot (ie/nested.rs:447-610) -/

/-- ie/nested.rs:627-662. -/
structure TschTimeslotTimings where
  id : Byte
  ccaOffset : Duration
  cca : Duration
  rxTx : Duration
  txOffset : Duration
  maxTx : Duration
  rxAckDelay : Duration
  ackWait : Duration
  rxOffset : Duration
  rxWait : Duration
  txAckDelay : Duration
  maxAck : Duration
  timeslotLength : Duration
  deriving DecidableEq, Repr

namespace TschTimeslotTimings

/-- `TschTimeslotTimings::new` (ie/nested.rs:674-691); `guard_time / 2` is a signed division. -/
def new (id : Byte) (guardTime : Duration) : TschTimeslotTimings where
  id := id
  ccaOffset := .fromUs 1800
  cca := .fromUs 128
  txOffset := .fromUs 2120
  rxOffset := (Duration.fromUs 2120).sub (.fromUs (guardTime.asUs.sdiv 2))
  rxAckDelay := .fromUs 800
  txAckDelay := .fromUs 1000
  rxWait := guardTime
  ackWait := .fromUs 400
  rxTx := .fromUs 192
  maxAck := .fromUs 2400
  maxTx := .fromUs 4256
  timeslotLength := .fromUs 10000

/-- `Default` (ie/nested.rs:664-672). -/
def default : TschTimeslotTimings := new 0 (.fromUs 2200)

/-! The getters (`id`, ie/nested.rs:694-696, and the twelve from line 699 on) return the fields. -/

/-- `set_cca_offset` (ie/nested.rs:704-706). -/
def setCcaOffset (t : TschTimeslotTimings) (v : Duration) : TschTimeslotTimings := { t with ccaOffset := v }
/-- `set_cca` (ie/nested.rs:714-716). -/
def setCca (t : TschTimeslotTimings) (v : Duration) : TschTimeslotTimings := { t with cca := v }
/-- `set_tx_offset` (ie/nested.rs:724-726). -/
def setTxOffset (t : TschTimeslotTimings) (v : Duration) : TschTimeslotTimings := { t with txOffset := v }
/-- `set_rx_offset` (ie/nested.rs:734-736). -/
def setRxOffset (t : TschTimeslotTimings) (v : Duration) : TschTimeslotTimings := { t with rxOffset := v }
/-- `set_rx_ack_delay` (ie/nested.rs:744-746). -/
def setRxAckDelay (t : TschTimeslotTimings) (v : Duration) : TschTimeslotTimings := { t with rxAckDelay := v }
/-- `set_tx_ack_delay` (ie/nested.rs:754-756). -/
def setTxAckDelay (t : TschTimeslotTimings) (v : Duration) : TschTimeslotTimings := { t with txAckDelay := v }
/-- `set_rx_wait` (ie/nested.rs:764-766). -/
def setRxWait (t : TschTimeslotTimings) (v : Duration) : TschTimeslotTimings := { t with rxWait := v }
/-- `set_ack_wait` (ie/nested.rs:774-776). -/
def setAckWait (t : TschTimeslotTimings) (v : Duration) : TschTimeslotTimings := { t with ackWait := v }
/-- `set_rx_tx` (ie/nested.rs:784-786). -/
def setRxTx (t : TschTimeslotTimings) (v : Duration) : TschTimeslotTimings := { t with rxTx := v }
/-- `set_max_ack` (ie/nested.rs:794-796). -/
def setMaxAck (t : TschTimeslotTimings) (v : Duration) : TschTimeslotTimings := { t with maxAck := v }
/-- `set_max_tx` (ie/nested.rs:804-806). -/
def setMaxTx (t : TschTimeslotTimings) (v : Duration) : TschTimeslotTimings := { t with maxTx := v }
/-- `set_timeslot_length` (ie/nested.rs:814-816). -/
def setTimeslotLength (t : TschTimeslotTimings) (v : Duration) : TschTimeslotTimings := { t with timeslotLength := v }

end TschTimeslotTimings

/-- The bytes wrapped by a `TschTimeslot<&[u8]>`. -/
abbrev TschTimeslot := Bytes

namespace TschTimeslot

/-- `id` (ie/nested.rs:496-499). -/
def id (d : TschTimeslot) : Out Byte := idx d 0
/-- `new` with `check_len` (ie/nested.rs:463-488); `DEFAULT_ID = 0`. -/
def new (d : Bytes) : Out TschTimeslot :=
  if d.length < 1 then .err
  else do
    let i ← id d
    if i = 0 then .ok d
    else if d.length ≥ 25 then .ok d else .err
/-- `u16` at an offset as `i64`: `&data[i..][..2]` (ie/nested.rs:514-553). -/
def durAt (d : Bytes) (i : Nat) : Out Duration := do
  let s ← sliceFrom d i
  let s ← sliceTo s 2
  let b0 ← idx s 0
  let b1 ← idx s 1
  .ok (.fromUs ((u16le b0 b1).setWidth 64))
/-- 24-bit value at an offset: `&data[i..][..3]`, `u32::from_le_bytes([b0, b1, b2, 0])`
(ie/nested.rs:554-568). -/
def dur24At (d : Bytes) (i : Nat) : Out Duration := do
  let s ← sliceFrom d i
  let s ← sliceTo s 3
  let b0 ← idx s 0
  let b1 ← idx s 1
  let b2 ← idx s 2
  .ok (.fromUs ((u32le b0 b1 b2 0).setWidth 64))
/-- `timeslot_timings` (ie/nested.rs:501-571): the last two values have two bytes iff the content
has exactly 25 bytes. -/
def timeslotTimings (d : TschTimeslot) : Out TschTimeslotTimings := do
  let i ← id d
  if i = 0 then .ok TschTimeslotTimings.default
  else do
    let ccaOffset ← durAt d 1
    let cca ← durAt d 3
    let txOffset ← durAt d 5
    let rxOffset ← durAt d 7
    let rxAckDelay ← durAt d 9
    let txAckDelay ← durAt d 11
    let rxWait ← durAt d 13
    let ackWait ← durAt d 15
    let rxTx ← durAt d 17
    let maxAck ← durAt d 19
    let maxTx ← if d.length = 25 then durAt d 21 else dur24At d 21
    let timeslotLength ← if d.length = 25 then durAt d 23 else dur24At d 24
    .ok { id := i, ccaOffset, cca, rxTx, txOffset, maxTx, rxAckDelay, ackWait, rxOffset, rxWait,
          txAckDelay, maxAck, timeslotLength }
/-- `has_timeslot_timings` (ie/nested.rs:573-576). -/
def hasTimeslotTimings (d : TschTimeslot) : Bool := decide (d.length > 1)
/-- `set_timeslot_id` (ie/nested.rs:580-583). -/
def setTimeslotId (d : Bytes) (i : Byte) : Out Bytes := setIdx d 0 i
/-- `data[i..][..2].copy_from_slice(&(t.as_us() as u16).to_le_bytes())`. -/
def putDur (i : Nat) (t : Duration) (d : Bytes) : Out Bytes :=
  modifyAt d i 2 fun s => copyFromSlice s (u16bytes (t.asUs.setWidth 16))
/-- `data[i..][..3].copy_from_slice(&(x as u32).to_le_bytes()[..3])`. -/
def putDur24 (i : Nat) (x : BitVec 32) (d : Bytes) : Out Bytes :=
  modifyAt d i 3 fun s => copyFromSlice s ((u32bytes x).take 3)
/-- `max_tx > 65535 || timeslot_length > 65535` on the values cast to `u32`
(ie/nested.rs:600-602). -/
def wide (t : TschTimeslotTimings) : Bool :=
  decide ((t.maxTx.asUs.setWidth 32).toNat > 65535) ||
    decide ((t.timeslotLength.asUs.setWidth 32).toNat > 65535)
/-- `set_timeslot_timings` (ie/nested.rs:585-609). -/
def setTimeslotTimings (d : Bytes) (t : TschTimeslotTimings) : Out Bytes := do
  let d ← setIdx d 0 t.id
  let d ← putDur 1 t.ccaOffset d
  let d ← putDur 3 t.cca d
  let d ← putDur 5 t.txOffset d
  let d ← putDur 7 t.rxOffset d
  let d ← putDur 9 t.rxAckDelay d
  let d ← putDur 11 t.txAckDelay d
  let d ← putDur 13 t.rxWait d
  let d ← putDur 15 t.ackWait d
  let d ← putDur 17 t.rxTx d
  let d ← putDur 19 t.maxAck d
  if wide t then do
    let d ← putDur24 21 (t.maxTx.asUs.setWidth 32) d
    putDur24 24 (t.timeslotLength.asUs.setWidth 32) d
  else do
    let d ← putDur 21 t.maxTx d
    putDur 23 t.timeslotLength d

end TschTimeslot

/-! ## TSCH slotframes and links (ie/nested.rs:842-1203) -/

/-- The bytes wrapped by a `LinkInformation<&[u8]>` (ie/nested.rs:1102-1121). -/
abbrev LinkInformation := Bytes

namespace LinkInformation

/-- `timeslot` (ie/nested.rs:1123-1127). -/
def timeslot (d : LinkInformation) : Out (BitVec 16) := readU16 d
/-- `channel_offset` (ie/nested.rs:1129-1133). -/
def channelOffset (d : LinkInformation) : Out (BitVec 16) := do
  let s ← sliceFrom d 2
  readU16 s
/-- `link_options`: `from_bits_truncate` keeps the five known bits (ie/nested.rs:1135-1138,
1205-1225). -/
def linkOptions (d : LinkInformation) : Out Byte := do
  let b ← idx d 4
  .ok (b &&& 0x1f#8)
/-- `set_timeslot` (ie/nested.rs:1142-1145). -/
def setTimeslot (d : Bytes) (v : BitVec 16) : Out Bytes :=
  modifyTo d 2 fun s => copyFromSlice s (u16bytes v)
/-- `set_channel_offset`: `data[2..4]` (ie/nested.rs:1147-1150). -/
def setChannelOffset (d : Bytes) (v : BitVec 16) : Out Bytes :=
  modifyAt d 2 2 fun s => copyFromSlice s (u16bytes v)
/-- `set_link_options` (ie/nested.rs:1152-1155). -/
def setLinkOptions (d : Bytes) (v : Byte) : Out Bytes := setIdx d 4 v

end LinkInformation

/-- `LinkInformationIterator::next` (ie/nested.rs:1188-1203); starts as `⟨data, 0, false⟩`
(1177-1186). -/
def linkNext (s : IeIter) : Out (Option LinkInformation × IeIter) :=
  if s.terminated then .ok (none, s)
  else do
    let rest ← sliceFrom s.data s.offset
    let offset := s.offset + 5
    .ok (some rest, { s with offset := offset, terminated := decide (offset ≥ s.data.length) })

/-- The bytes wrapped by a `SlotframeDescriptor<&[u8]>` (ie/nested.rs:943-945). -/
abbrev SlotframeDescriptor := Bytes

namespace SlotframeDescriptor

/-- `links` (ie/nested.rs:994-997). -/
def links (d : SlotframeDescriptor) : Out Byte := idx d 3
/-- `handle` (ie/nested.rs:983-986). -/
def handle (d : SlotframeDescriptor) : Out Byte := idx d 0
/-- `size` (ie/nested.rs:988-992). -/
def size (d : SlotframeDescriptor) : Out (BitVec 16) := do
  let s ← sliceFrom d 1
  readU16 s
/-- `new` with `check_len` (ie/nested.rs:948-969). -/
def new (d : Bytes) : Out SlotframeDescriptor :=
  if d.length < 4 then .err
  else do
    let n ← links d
    if d.length ≥ 4 + n.toNat * 5 then .ok d else .err
/-- `len` (ie/nested.rs:977-981). -/
def len (d : SlotframeDescriptor) : Out Nat := do let n ← links d; .ok (4 + n.toNat * 5)
/-- `link_informations` (ie/nested.rs:999-1004). -/
def linkIter (d : SlotframeDescriptor) : Out IeIter := do
  let s ← sliceFrom d 4
  let n ← links d
  let s ← sliceTo s (n.toNat * 5)
  .ok ⟨s, 0, false⟩
/-- `content`: `&data[4..len()]` (ie/nested.rs:1006-1009). -/
def content (d : SlotframeDescriptor) : Out Bytes := do let n ← len d; slice d 4 n
/-- `set_handle` (ie/nested.rs:1013-1016). -/
def setHandle (d : Bytes) (v : Byte) : Out Bytes := setIdx d 0 v
/-- `set_size`: `data[1..3]` (ie/nested.rs:1018-1021). -/
def setSize (d : Bytes) (v : BitVec 16) : Out Bytes :=
  modifyAt d 1 2 fun s => copyFromSlice s (u16bytes v)
/-- `set_number_of_links` (ie/nested.rs:1023-1026). -/
def setNumberOfLinks (d : Bytes) (v : Byte) : Out Bytes := setIdx d 3 v

end SlotframeDescriptor

/-- ie/nested.rs:1047-1054. -/
structure SlotframeIter where
  data : Bytes
  offset : Nat
  terminated : Bool
  slotframes : Nat
  slotframeCount : Nat
  deriving DecidableEq, Repr

/-- `SlotframeDescriptorIterator::new` (ie/nested.rs:1056-1069). -/
def slotframeIter (slotframes : Nat) (data : Bytes) : SlotframeIter :=
  ⟨data, 0, slotframes == 0, slotframes, 0⟩

/-- `SlotframeDescriptorIterator::next` (ie/nested.rs:1071-1093). -/
def slotframeNext (s : SlotframeIter) : Out (Option SlotframeDescriptor × SlotframeIter) :=
  if s.terminated then .ok (none, s)
  else do
    let rest ← sliceFrom s.data s.offset
    let r ← (SlotframeDescriptor.new rest).toOption
    match r with
    | none => .ok (none, { s with terminated := true })
    | some d => do
      let n ← d.len
      let count := s.slotframeCount + 1
      let offset := s.offset + n
      .ok (some d, { s with
        slotframeCount := count,
        offset := offset,
        terminated := if offset ≥ s.data.length ∨ count ≥ s.slotframes then true
          else s.terminated })

/-- The bytes wrapped by a `TschSlotframeAndLink<&[u8]>` (ie/nested.rs:849-852). -/
abbrev TschSlotframeAndLink := Bytes

namespace TschSlotframeAndLink

/-- `number_of_slotframes` (ie/nested.rs:888-891). -/
def numberOfSlotframes (d : TschSlotframeAndLink) : Out Byte := idx d 0
/-- `slotframe_descriptors` (ie/nested.rs:893-899). -/
def descriptorIter (d : TschSlotframeAndLink) : Out SlotframeIter := do
  let n ← numberOfSlotframes d
  let s ← sliceFrom d 1
  .ok (slotframeIter n.toNat s)
/-- Run the descriptor iterator to its end. -/
def descriptors (d : TschSlotframeAndLink) : Out (List SlotframeDescriptor × SlotframeIter) := do
  let it ← descriptorIter d
  drain slotframeNext (d.length + 1) it
/-- `.map(|d| d.len()).sum()`. -/
def sumLens : List SlotframeDescriptor → Out Nat
  | [] => .ok 0
  | d :: l => do
    let n ← d.len
    let m ← sumLens l
    .ok (n + m)
/-- `new` with `check_len` (ie/nested.rs:855-880). -/
def new (d : Bytes) : Out TschSlotframeAndLink :=
  if d.length < 1 then .err
  else do
    let ds ← descriptors d
    let n ← sumLens ds.1
    if d.length > n then .ok d else .err
/-- `len` (ie/nested.rs:901-907). -/
def len (d : TschSlotframeAndLink) : Out Nat := do
  let ds ← descriptors d
  let n ← sumLens ds.1
  .ok (1 + n)
/-- `content`: `&data[1..len()]` (ie/nested.rs:909-913). -/
def content (d : TschSlotframeAndLink) : Out Bytes := do let n ← len d; slice d 1 n
/-- `set_number_of_slotframes` (ie/nested.rs:917-920). -/
def setNumberOfSlotframes (d : Bytes) (v : Byte) : Out Bytes := setIdx d 0 v

end TschSlotframeAndLink

/-- The bytes wrapped by a `ChannelHopping<&[u8]>` (ie/nested.rs:1246-1249). -/
abbrev ChannelHopping := Bytes

namespace ChannelHopping

/-- `new` with `check_len` (ie/nested.rs:1257-1270). -/
def new (d : Bytes) : Out ChannelHopping := if d.isEmpty then .err else .ok d
/-- `hopping_sequence_id` (ie/nested.rs:1278-1281). -/
def hoppingSequenceId (d : ChannelHopping) : Out Byte := idx d 0
/-- `set_hopping_sequence_id` (ie/nested.rs:1285-1288). -/
def setHoppingSequenceId (d : Bytes) (v : Byte) : Out Bytes := setIdx d 0 v

end ChannelHopping

end Dot15d4
