import Verif.Model.Cat
import Verif.Model.Display

/-!
# The characters printed (`Display` and `Debug` of dot15d4-frame, and dot15d4-cat)

How the values of `Display.Piece` and `Cat.Line` are spelled.  Text is a list of characters.
`core::fmt` (numbers in decimal and hexadecimal, `{:.2}` of a number of type `f32`, derived `Debug`) and
`bitflags::parser::to_writer` are modelled as documented.  Simplified: the colours of dot15d4-cat are
left out (as its tests do, by stripping the escape sequences), and writing does not fail.
-/

namespace Dot15d4.Text
open Out

/-- Text. -/
abbrev Chars := List Char

/-! ## Single precision numbers

A number that is not negative is a number of units of 2^-149, the smallest number of the type `f32`.
The numbers occurring here are too small to overflow to infinity. -/

/-- `n / d` rounded to the nearest whole number, ties to even. -/
def roundDiv (n d : Nat) : Nat :=
  let q := n / d
  let r := n % d
  if 2 * r < d then q else if 2 * r = d then q + q % 2 else q + 1

/-- `n / d` units rounded to a number of type `f32`: 24 binary digits, or a multiple of a unit. -/
def roundF32 (n d : Nat) : Nat :=
  let u := 2 ^ (Nat.log2 (n / d) - 23)
  roundDiv n (d * u) * u

/-- Units in 1. -/
def one : Nat := 2 ^ 149

/-- `us as f32 / 1000.0`, without the sign. -/
def asMs (us : Nat) : Nat := roundF32 (roundF32 (us * one) 1) 1000

/-! ## Numbers -/

/-- `{}` of an unsigned number. -/
def dec (n : Nat) : Chars := Nat.toDigits 10 n

/-- `{:x}` of an unsigned number. -/
def hex (n : Nat) : Chars := Nat.toDigits 16 n

/-- `{:.2}` of a number of hundredths. -/
def hundredths (h : Nat) : Chars :=
  dec (h / 100) ++ '.' :: Nat.digitChar (h % 100 / 10) :: [Nat.digitChar (h % 10)]

/-- `{:.2}` of a number of type `f32`, without the sign. -/
def fixed2 (units : Nat) : Chars := hundredths (roundDiv (units * 100) one)

/-- `{}` of a number of milliseconds given in microseconds. -/
def ms (us : Int) : Chars :=
  (if us < 0 then ['-'] else []) ++ fixed2 (asMs us.natAbs) ++ ['m', 's']

/-- `Display for Duration` (time.rs:103-107). -/
def duration (d : Duration) : Chars := ms d.us.toInt

/-- `Display for Instant` (time.rs:97-101). -/
def instant (i : Instant) : Chars := ms i.us.toInt

/-- The elements of a list in `Debug` output, after the first. -/
def more : Bytes → Chars
  | [] => [']']
  | b :: l => ',' :: ' ' :: (hex b.toNat ++ more l)

/-- `{:x?}` and `{:0x?}` of a byte slice. -/
def bytes : Bytes → Chars
  | [] => ['[', ']']
  | b :: l => '[' :: (hex b.toNat ++ more l)

/-! ## Enumerations (`{:?}` shows the name of the variant) -/

/-- `HeaderElementId` (ie/headers.rs:128-168). -/
def headerId : HeaderElementId → String
  | .vendorSpecificHeader => "VendorSpecificHeader"
  | .csl => "Csl"
  | .rit => "Rit"
  | .dsmePanDescriptor => "DsmePanDescriptor"
  | .rendezvousTime => "RendezvousTime"
  | .timeCorrection => "TimeCorrection"
  | .extendedDsmePanDescriptor => "ExtendedDsmePanDescriptor"
  | .fragmentSequenceContextDescription => "FragmentSequenceContextDescription"
  | .simplifiedSuperframeSpecification => "SimplifiedSuperframeSpecification"
  | .simplifiedGtsSpecification => "SimplifiedGtsSpecification"
  | .lecimCapabilities => "LecimCapabilities"
  | .trleDescriptor => "TrleDescriptor"
  | .rccCapabilities => "RccCapabilities"
  | .rccnDescriptor => "RccnDescriptor"
  | .globalTime => "GlobalTime"
  | .da => "Da"
  | .headerTermination1 => "HeaderTermination1"
  | .headerTermination2 => "HeaderTermination2"
  | .unkown => "Unkown"

/-- `PayloadGroupId` (ie/payloads.rs:119-131). -/
def groupId : PayloadGroupId → String
  | .esdu => "Esdu"
  | .mlme => "Mlme"
  | .vendorSpecific => "VendorSpecific"
  | .payloadTermination => "PayloadTermination"
  | .unknown => "Unknown"

/-- `NestedSubIdShort` (ie/nested.rs:212-282). -/
def shortId : NestedSubIdShort → String
  | .tschSynchronization => "TschSynchronization"
  | .tschSlotframeAndLink => "TschSlotframeAndLink"
  | .tschTimeslot => "TschTimeslot"
  | .hoppingTiming => "HoppingTiming"
  | .enhancedBeaconFilter => "EnhancedBeaconFilter"
  | .macMetrics => "MacMetrics"
  | .allMacMetrics => "AllMacMetrics"
  | .coexistenceSpecification => "CoexistenceSpecification"
  | .sunDeviceCapabilities => "SunDeviceCapabilities"
  | .sunFskGenericPhy => "SunFskGenericPhy"
  | .modeSwitchParameter => "ModeSwitchParameter"
  | .phyParameterChange => "PhyParameterChange"
  | .oQpskPhyMode => "OQpskPhyMode"
  | .pcaAllocation => "PcaAllocation"
  | .lecimDsssOperatingMode => "LecimDsssOperatingMode"
  | .lecimFskOperatingMode => "LecimFskOperatingMode"
  | .tvwsPhyOperatingMode => "TvwsPhyOperatingMode"
  | .tvwsDeviceCapabilities => "TvwsDeviceCapabilities"
  | .tvwsDeviceCategory => "TvwsDeviceCategory"
  | .tvwsDeviceIdentification => "TvwsDeviceIdentification"
  | .tvwsDeviceLocation => "TvwsDeviceLocation"
  | .tvwsChannelInformationQuery => "TvwsChannelInformationQuery"
  | .tvwsChannelInformationSource => "TvwsChannelInformationSource"
  | .ctm => "Ctm"
  | .timestamp => "Timestamp"
  | .timestampDifference => "TimestampDifference"
  | .tmctpSpecification => "TmctpSpecification"
  | .rccPhyOperatingMode => "RccPhyOperatingMode"
  | .linkMargin => "LinkMargin"
  | .rsGfskDeviceCapabilities => "RsGfskDeviceCapabilities"
  | .multiPhy => "MultiPhy"
  | .vendorSpecific => "VendorSpecific"
  | .srm => "Srm"
  | .unkown => "Unkown"

/-- `NestedSubIdLong` (ie/nested.rs:337-345). -/
def longId : NestedSubIdLong → String
  | .vendorSpecificNested => "VendorSpecificNested"
  | .channelHopping => "ChannelHopping"
  | .unkown => "Unkown"

/-- `match nested.sub_id() { Short(id) => format!("{id:?}"), Long(id) => format!("{id:?}") }`,
dot15d4-cat/src/lib.rs:248-251. -/
def nestedId : NestedSubId → String
  | .short id => shortId id
  | .long id => longId id

/-- `FrameType` (frame_control.rs:8-26). -/
def frameType : FrameType → String
  | .beacon => "Beacon"
  | .data => "Data"
  | .ack => "Ack"
  | .macCommand => "MacCommand"
  | .multipurpose => "Multipurpose"
  | .fragmentOrFrak => "FragmentOrFrak"
  | .extended => "Extended"
  | .unknown => "Unknown"

/-- `FrameVersion` (frame_control.rs:45-55). -/
def frameVersion : FrameVersion → String
  | .v2003 => "Ieee802154_2003"
  | .v2006 => "Ieee802154_2006"
  | .v2020 => "Ieee802154_2020"
  | .unknown => "Unknown"

/-- `AddressingMode` (addressing.rs:161-171). -/
def mode : AddressingMode → String
  | .absent => "Absent"
  | .short => "Short"
  | .extended => "Extended"
  | .unknown => "Unknown"

/-! ## Link options -/

/-- The flags of `TschLinkOption` (ie/nested.rs:1213-1225). -/
def flags : List (Byte × String) :=
  [(1, "Tx"), (2, "Rx"), (4, "Shared"), (8, "TimeKeeping"), (16, "Priority")]

/-- Texts joined by ` | `. -/
def joinBar : List String → Chars
  | [] => []
  | [s] => s.toList
  | s :: l => s.toList ++ " | ".toList ++ joinBar l

/-- `Display for TschLinkOption` (ie/nested.rs:1233-1237): `bitflags::parser::to_writer` shows the names
of the flags contained in the value, joined by ` | `; there are no other bits, as `link_options` drops
them (ie/nested.rs:1136-1138). -/
def linkOptions (o : Byte) : Chars := joinBar ((flags.filter fun f => o &&& f.1 == f.1).map (·.2))

/-! ## Text of dot15d4-frame -/

/-- The spelling of a piece of text.  `SimplifiedSuperframeSpecification` is a structure with the field
`buffer` (dot15d4-macros/src/lib.rs:29-32, 183), shown as a `Result` (ie/headers.rs:108-113). -/
def piece : Display.Piece → Chars
  | .lit s => s.toList
  | .number n => dec n
  | .hex n => hex n.toNat
  | .address a => a.display
  | .duration d => duration d
  | .bytes b => bytes b
  | .superframe none => "Err(Error)".toList
  | .superframe (some b) =>
    "Ok(SimplifiedSuperframeSpecification { buffer: ".toList ++ bytes b ++ " })".toList
  | .linkOptions o => linkOptions o
  | .frameType t => (frameType t).toList
  | .mode m => (mode m).toList
  | .version v => (frameVersion v).toList
  | .headerId id => (headerId id).toList
  | .groupId id => (groupId id).toList
  | .shortId id => (shortId id).toList
  | .longId id => (longId id).toList

/-- The characters of a text. -/
def display : Display.Text → Chars
  | [] => []
  | p :: l => piece p ++ display l

/-! ## Text of dot15d4-cat -/

/-- `" ".repeat(n)`, and `{:n$}` of an empty string. -/
def spaces (n : Nat) : Chars := List.replicate n ' '

/-- `Display for TschTimeslotTimings` with a width (ie/nested.rs:819-840). -/
def timings (indent : Nat) (t : TschTimeslotTimings) : Chars :=
  "cca_offset: ".toList ++ duration t.ccaOffset ++ '\n' ::
  (spaces indent ++ "cca: ".toList ++ duration t.cca ++ '\n' ::
  (spaces indent ++ "tx offset: ".toList ++ duration t.txOffset ++ '\n' ::
  (spaces indent ++ "rx offset: ".toList ++ duration t.rxOffset ++ '\n' ::
  (spaces indent ++ "tx ack delay: ".toList ++ duration t.txAckDelay ++ '\n' ::
  (spaces indent ++ "rx ack delay: ".toList ++ duration t.rxAckDelay ++ '\n' ::
  (spaces indent ++ "rx wait: ".toList ++ duration t.rxWait ++ '\n' ::
  (spaces indent ++ "ack wait: ".toList ++ duration t.ackWait ++ '\n' ::
  (spaces indent ++ "rx/tx: ".toList ++ duration t.rxTx ++ '\n' ::
  (spaces indent ++ "max ack: ".toList ++ duration t.maxAck ++ '\n' ::
  (spaces indent ++ "max tx: ".toList ++ duration t.maxTx ++ '\n' ::
  (spaces indent ++ "timeslot length: ".toList ++ duration t.timeslotLength ++ ['\n'])))))))))))

/-- `as usize` of a `bool`. -/
def bit (b : Bool) : Chars := dec (if b then 1 else 0)

/-- What is written for a line, without indentation and end of line (dot15d4-cat/src/lib.rs; the lines
are given by constructor): 54-69 `frameType`; 70-99 `bit`; 100-109 `mode`; 110-115 `version`; 124
`sequenceNumber`; 136, 153 `panId`; 140-149, 157-166 `address`; 204, 206 `headerElement`; 211 and
ie/headers.rs:412-421 `timeCorrection`; 246-252 `nestedElement`; 258 and ie/nested.rs:436-445
`synchronization`; 265 and ie/nested.rs:612-616 `timeslot`; 280 and ie/nested.rs:930-934 `slotframes`;
285-288 and ie/nested.rs:1036-1045 `slotframe`; 293 and ie/nested.rs:1158-1168 `link`; 305 and
ie/nested.rs:1291-1295 `channelHopping`; 317 `otherGroup`; 332 `payload`. -/
def content : Cat.Line → Chars
  | .text s => s.toList
  | .frameType e t =>
    "frame type: ".toList ++ (if e then "Enhanced ".toList else []) ++ (frameType t).toList
  | .bit label v => label.toList ++ ": ".toList ++ bit v
  | .mode label m => label.toList ++ ": ".toList ++ (mode m).toList
  | .version v =>
    "frame version: ".toList ++ dec v.toU8.toNat ++ " (".toList ++ (frameVersion v).toList ++ [')']
  | .sequenceNumber n => "sequence number: ".toList ++ dec n.toNat
  | .panId label id => label.toList ++ ": ".toList ++ hex id.toNat
  | .address label a b =>
    label.toList ++ ": ".toList ++ a.display ++ (if b then " (broadcast)".toList else [])
  | .headerElement id => (headerId id).toList
  | .timeCorrection t n => duration t ++ ", nack: ".toList ++ bit n
  | .nestedElement id => (nestedId id).toList
  | .synchronization asn jm =>
    "ASN: ".toList ++ dec asn.toNat ++ ", join metric: ".toList ++ dec jm.toNat
  | .timeslot id => "slot ID: ".toList ++ dec id.toNat
  | .timings _ => []
  | .slotframes n => "#slotframes: ".toList ++ dec n.toNat
  | .slotframe h n => "Slotframe Handle: ".toList ++ dec h.toNat ++ ", #links: ".toList ++ dec n.toNat
  | .link t c o =>
    "Timeslot: ".toList ++ dec t.toNat ++ ", Channel Offset: ".toList ++ dec c.toNat ++
      ", Link Options: ".toList ++ linkOptions o
  | .channelHopping id => "sequence ID: ".toList ++ dec id.toNat
  | .otherGroup id => (groupId id).toList ++ ": unimplemented".toList
  | .payload b => bytes b

/-- `writeln`, and `write` for the timings, which end in a line break themselves
(dot15d4-cat/src/lib.rs:22-30, 266-272). -/
def line : Nat × Cat.Line → Chars
  | (indent, .timings t) => spaces indent ++ timings indent t
  | (indent, l) => spaces indent ++ content l ++ ['\n']

/-- The text of all lines. -/
def lines : List (Nat × Cat.Line) → Chars
  | [] => []
  | l :: m => line l ++ lines m

/-- `FrameParser::parse`, dot15d4-cat/src/lib.rs:41-336, the text returned. -/
def parse (input : Bytes) : Out Chars := do
  .ok (lines (← Cat.parse input))

/-- `FrameParser::parse_hex`, dot15d4-cat/src/lib.rs:36-39. -/
def parseHex (input : Chars) : Out Chars := do
  .ok (lines (← Cat.parseHex input))

end Dot15d4.Text
