import Verif.Model.Ie
import Verif.Spec.Ie

/-!
# Identifiers of information elements (IEEE 802.15.4-2020, Tables 7-7, 7-15, 7-16 and 7-17)

Only the enumeration types of the model (the API's data types) are used.
-/

namespace Dot15d4.Spec
open Dot15d4

/-- Header elements. -/
def headerCodes : List (Nat × HeaderElementId) :=
  [(0x00, .vendorSpecificHeader), (0x1a, .csl), (0x1b, .rit), (0x1c, .dsmePanDescriptor),
   (0x1d, .rendezvousTime), (0x1e, .timeCorrection), (0x21, .extendedDsmePanDescriptor),
   (0x22, .fragmentSequenceContextDescription), (0x23, .simplifiedSuperframeSpecification),
   (0x24, .simplifiedGtsSpecification), (0x25, .lecimCapabilities), (0x26, .trleDescriptor),
   (0x27, .rccCapabilities), (0x28, .rccnDescriptor), (0x29, .globalTime), (0x2b, .da),
   (0x7e, .headerTermination1), (0x7f, .headerTermination2)]

/-- Payload elements. -/
def payloadCodes : List (Nat × PayloadGroupId) :=
  [(0, .esdu), (1, .mlme), (2, .vendorSpecific), (15, .payloadTermination)]

/-- Nested elements of type short. -/
def shortCodes : List (Nat × NestedSubIdShort) :=
  [(0x1a, .tschSynchronization), (0x1b, .tschSlotframeAndLink), (0x1c, .tschTimeslot),
   (0x1d, .hoppingTiming), (0x1e, .enhancedBeaconFilter), (0x1f, .macMetrics),
   (0x20, .allMacMetrics), (0x21, .coexistenceSpecification), (0x22, .sunDeviceCapabilities),
   (0x23, .sunFskGenericPhy), (0x24, .modeSwitchParameter), (0x25, .phyParameterChange),
   (0x26, .oQpskPhyMode), (0x27, .pcaAllocation), (0x28, .lecimDsssOperatingMode),
   (0x29, .lecimFskOperatingMode), (0x2b, .tvwsPhyOperatingMode), (0x2c, .tvwsDeviceCapabilities),
   (0x2d, .tvwsDeviceCategory), (0x2e, .tvwsDeviceIdentification), (0x2f, .tvwsDeviceLocation),
   (0x30, .tvwsChannelInformationQuery), (0x31, .tvwsChannelInformationSource), (0x32, .ctm),
   (0x33, .timestamp), (0x34, .timestampDifference), (0x35, .tmctpSpecification),
   (0x36, .rccPhyOperatingMode), (0x37, .linkMargin), (0x38, .rsGfskDeviceCapabilities),
   (0x39, .multiPhy), (0x40, .vendorSpecific), (0x46, .srm)]

/-- Nested elements of type long. -/
def longCodes : List (Nat × NestedSubIdLong) := [(8, .vendorSpecificNested), (9, .channelHopping)]

/-- The entry for a code, or `d` if there is none. -/
def named {α : Type} (t : List (Nat × α)) (d : α) (code : Nat) : α := (t.lookup code).getD d

end Dot15d4.Spec
