import Verif.Spec.Filter
import Verif.Props.Origin
import Verif.Props.Delivery

/-!
# C93: the frame filter against the standard's

`CsmaDevice::is_package_for_us` (dot15d4/src/csma/mod.rs) against IEEE 802.15.4, 6.7.2.
-/

namespace Dot15d4.Props
open Dot15d4 Spec Csma Out

/-- The attributes of a device with the constants `c` and the address `hw`. -/
def attributes (c : Consts) (hw : Arr 8) (coordinator : Bool) : MacAttributes :=
  ⟨c.panId, shortOf hw, hw, coordinator, c.implicitBroadcast⟩

/-- The full property: the device accepts exactly the frames the standard has it accept. -/
def C93_statement : Prop :=
  ∀ (c : Consts) (hw : Arr 8) (coordinator : Bool) (h : Header), h.WellFormed →
  Acceptable h.bytes → ∃ r, isPackageForUs c hw h.bytes = .ok r ∧
    (r = true ↔ StdFilter (attributes c hw coordinator) h)

theorem panOk_iff (ours : BitVec 16) (p : Option (BitVec 16)) :
    PanOk ours p ↔ ∀ q, p = some q → q = ours ∨ q = 0xffff := by
  cases p <;> simp [PanOk]

theorem addrOk_iff (hw : Arr 8) (d : Address) :
    AddrOk hw d ↔ d ≠ .absent ∧ (∀ x, d = .short x → x = shortOf hw ∨ x = ⟨[0xff, 0xff], rfl⟩) ∧
      (∀ x, d = .extended x → x = hw) := by
  cases d <;> simp [AddrOk, or_comm]

/-- **C93**, frames with a destination address (and no beacons) and frames without any address: the
device accepts exactly those the standard has it accept. -/
theorem C93_addressed_partial (c : Consts) (hw : Arr 8) (coordinator : Bool) (h : Header)
    (hf : h.WellFormed) (hacc : Acceptable h.bytes)
    (hd : ∀ a, h.addressing = some a → a.dst ≠ .absent ∧ h.fc.frameType ≠ .beacon) :
    ∃ r, isPackageForUs c hw h.bytes = .ok r ∧
      (r = true ↔ StdFilter (attributes c hw coordinator) h) := by
  obtain ⟨r, h1, h2⟩ := C43_filter_partial c hw h hf hacc
  obtain ⟨hty, hv, -⟩ := header_known hacc
  refine ⟨r, h1, h2.trans ?_⟩
  cases ha : h.addressing with
  | none => simp [ForUs, StdFilter, ha, hty, hv, attributes]
  | some a =>
    obtain ⟨hd1, hd2⟩ := hd a ha
    simp only [ForUs, StdFilter, ha, panOk_iff, addrOk_iff, attributes]
    constructor
    · rintro ⟨p1, -, p2, p3⟩
      exact ⟨hty, hv, p1, p2, p3, fun e => absurd e hd2, fun e => absurd e hd1⟩
    · rintro ⟨-, -, p1, p2, p3, -⟩
      exact ⟨p1, hd1, p2, p3⟩

/-- **C93**: whatever the device accepts, the standard has it accept, except for beacons. -/
theorem C93_sound (c : Consts) (hw : Arr 8) (coordinator : Bool) (h : Header)
    (hf : h.WellFormed) (hacc : Acceptable h.bytes) (hb : h.fc.frameType ≠ .beacon)
    (hr : isPackageForUs c hw h.bytes = .ok true) : StdFilter (attributes c hw coordinator) h := by
  obtain ⟨r, h1, h2⟩ := C43_filter_partial c hw h hf hacc
  rw [hr] at h1
  cases h1
  obtain ⟨r', h1', h2'⟩ := C93_addressed_partial c hw coordinator h hf hacc fun a ha => by
    have := h2.1 rfl
    simp only [ForUs, ha] at this
    exact ⟨((addrOk_iff _ _).1 this.2).1, hb⟩
  rw [hr] at h1'
  cases h1'
  exact h2'.1 rfl

/-- **C93**, beacons with a destination address: the PAN they come from is not looked at. -/
theorem C93_beacons (c : Consts) (hw : Arr 8) (coordinator : Bool) (h : Header)
    (hf : h.WellFormed) (hacc : Acceptable h.bytes) (hb : h.fc.frameType = .beacon)
    {a : Addressing} (ha : h.addressing = some a) (hd : a.dst ≠ .absent) :
    ∃ r, isPackageForUs c hw h.bytes = .ok r ∧
      (StdFilter (attributes c hw coordinator) h ↔
        r = true ∧ (c.panId = 0xffff ∨ a.sourcePan = some c.panId)) := by
  obtain ⟨r, h1, h2⟩ := C43_filter_partial c hw h hf hacc
  obtain ⟨hty, hv, -⟩ := header_known hacc
  refine ⟨r, h1, ?_⟩
  rw [h2]
  simp only [ForUs, StdFilter, ha, panOk_iff, addrOk_iff, attributes]
  constructor
  · rintro ⟨-, -, p1, p2, p3, p4, -⟩
    exact ⟨⟨p1, hd, p2, p3⟩, p4 hb⟩
  · rintro ⟨⟨p1, -, p2, p3⟩, p4⟩
    exact ⟨hty, hv, p1, p2, p3, fun _ => p4, fun e => absurd e hd⟩

/-- **C93**, frames that have addressing fields but no destination address: all are dropped.  These
are the beacons of the standard's versions 2003 and 2006, and what devices send to their
coordinator. -/
theorem C93_unaddressed (c : Consts) (hw : Arr 8) (h : Header)
    (hf : h.WellFormed) (hacc : Acceptable h.bytes) {a : Addressing} (ha : h.addressing = some a)
    (hd : a.dst = .absent) : isPackageForUs c hw h.bytes = .ok false := by
  obtain ⟨r, h1, h2⟩ := C43_filter_partial c hw h hf hacc
  cases r with
  | false => exact h1
  | true =>
    have := h2.1 rfl
    simp only [ForUs, ha] at this
    exact absurd hd ((addrOk_iff _ _).1 this.2).1

/-- **C93**, the whole device, with the filter switched on (`ignore_not_for_us`): every buffer it
hands over in any execution holds a frame that the standard has it accept, or a beacon; and that
frame has a destination address unless it has no addressing fields at all. -/
theorem C93_device (R : Device) (hR : Sane R) (hi : R.config.ignoreNotForUs = true)
    {t : List (Ev CallAns)} {o : Fin Empty} (he : Exec (runDevice R) t o) {fb : FrameBuffer}
    (hfb : fb ∈ deliveries (t.filterMap rxEvent)) (coordinator : Bool) :
    ∃ h, Holds R.format fb.buffer.1 h ∧
      (StdFilter (attributes R.consts R.hardwareAddress coordinator) h ∨
        h.fc.frameType = .beacon) ∧
      ∀ a, h.addressing = some a → a.dst ≠ .absent := by
  have hmem : RxEvent.deliver fb ∈ t.filterMap rxEvent := by
    obtain ⟨e, h1, h2⟩ := List.mem_filterMap.1 hfb
    cases e <;> simp at h2
    subst h2
    exact h1
  obtain ⟨l1, l3, hl⟩ := List.append_of_mem hmem
  obtain ⟨-, -, h, -, -, -, -, hh, hp⟩ := deliver_means_received R hR he hl
  obtain ⟨hw, hacc, -⟩ := id hh
  have hfor := hp.1.resolve_right (by simp [hi])
  obtain ⟨r, h1, h2⟩ := C43_filter_partial R.consts R.hardwareAddress h hw hacc
  rw [h2.2 hfor] at h1
  refine ⟨h, hh, ?_, ?_⟩
  · by_cases hb : h.fc.frameType = .beacon
    · exact Or.inr hb
    · exact Or.inl (C93_sound _ _ _ h hw hacc hb h1)
  · intro a ha hd
    rw [C93_unaddressed _ _ h hw hacc ha hd] at h1
    cases h1

/-- A beacon (2006) of the PAN 0xabcd, from a short address. -/
def plainBeacon : Header :=
  { o0 := 0x00, o1 := 0x90, seq := some 7
    addressing := some ⟨none, .absent, some 0xabcd, .short ⟨[1, 2], rfl⟩⟩
    rest := [0xff, 0xcf, 0, 0] }

theorem plainBeacon_ok : plainBeacon.WellFormed ∧ Acceptable plainBeacon.bytes := by
  refine ⟨⟨by decide, by decide, by decide, by decide⟩, by decide, by decide, 0x00, 0x90, _, rfl,
    by decide, by decide, by decide, by decide, by decide, by decide⟩

theorem sourceOnly_accepted : StdFilter (attributes { panId := 0xabcd }
    ⟨[1, 2, 3, 4, 5, 6, 7, 8], rfl⟩ true) sourceOnly := by
  refine ⟨by decide, by decide, ?_⟩
  simp [sourceOnly, attributes, Addressing.sourcePan]

theorem plainBeacon_accepted (coordinator : Bool) : StdFilter (attributes { panId := 0xabcd }
    ⟨[1, 2, 3, 4, 5, 6, 7, 8], rfl⟩ coordinator) plainBeacon := by
  refine ⟨by decide, by decide, ?_⟩
  simp [plainBeacon, attributes, Addressing.sourcePan, Header.fc]
  exact fun h => absurd h (by decide)

/-- The full property is false: a plain beacon of the device's own PAN is dropped. -/
theorem C93_false : ¬ C93_statement := by
  intro h
  obtain ⟨r, h1, h2⟩ := h { panId := 0xabcd } ⟨[1, 2, 3, 4, 5, 6, 7, 8], rfl⟩ false plainBeacon
    plainBeacon_ok.1 plainBeacon_ok.2
  rw [C93_unaddressed _ _ _ plainBeacon_ok.1 plainBeacon_ok.2 rfl rfl] at h1
  cases h1
  exact absurd (h2.2 (plainBeacon_accepted false)) (by simp)

/-- So is what is sent to a PAN coordinator without naming it. -/
example : isPackageForUs { panId := 0xabcd } ⟨[1, 2, 3, 4, 5, 6, 7, 8], rfl⟩ sourceOnly.bytes =
    .ok false ∧
    StdFilter (attributes { panId := 0xabcd } ⟨[1, 2, 3, 4, 5, 6, 7, 8], rfl⟩ true) sourceOnly :=
  ⟨C93_unaddressed _ _ _ sourceOnly_ok.1 sourceOnly_ok.2 rfl rfl, sourceOnly_accepted⟩

/-- A beacon (2006) of the PAN 0x1234 to everyone. -/
def foreignBeacon : Header :=
  { o0 := 0x00, o1 := 0x98, seq := some 7
    addressing := some ⟨some 0xffff, .short ⟨[0xff, 0xff], rfl⟩, some 0x1234, .short ⟨[1, 2], rfl⟩⟩
    rest := [0xff, 0xcf, 0, 0] }

/-- Non-vacuity of `C93_beacons`: a beacon of another PAN is accepted. -/
example : foreignBeacon.WellFormed ∧ Acceptable foreignBeacon.bytes ∧
    isPackageForUs { panId := 0xabcd } ⟨[1, 2, 3, 4, 5, 6, 7, 8], rfl⟩ foreignBeacon.bytes =
      .ok true ∧
    ¬ StdFilter (attributes { panId := 0xabcd } ⟨[1, 2, 3, 4, 5, 6, 7, 8], rfl⟩ false)
      foreignBeacon := by
  have h1 : foreignBeacon.WellFormed := ⟨by decide, by decide, by decide, by decide⟩
  have h2 : Acceptable foreignBeacon.bytes := ⟨by decide, by decide, 0x00, 0x98, _, rfl,
    by decide, by decide, by decide, by decide, by decide, by decide⟩
  refine ⟨h1, h2, by decide, ?_⟩
  obtain ⟨r, -, h3⟩ := C93_beacons { panId := 0xabcd } ⟨[1, 2, 3, 4, 5, 6, 7, 8], rfl⟩ false
    foreignBeacon h1 h2 (by decide) rfl (by decide)
  rw [h3]
  rintro ⟨-, h⟩
  revert h
  decide

set_option maxRecDepth 40000 in
/-- Non-vacuity of `C93_device`: of a plain beacon and a frame for the device, the latter is handed
over. -/
example : exampleDevice.config.ignoreNotForUs = true ∧ ∃ t, Exec (runDevice exampleDevice) t .pending ∧
    receptions (t.filterMap rxEvent) = [padded (11 :: plainBeacon.bytes), askingFrame] ∧
    deliveries (t.filterMap rxEvent) = [⟨askingFrame, true⟩] := by
  obtain ⟨t, h1, h2⟩ := poll_outcome hearing 20 (runDevice exampleDevice)
    ([padded (11 :: plainBeacon.bytes), askingFrame], ⟨none, none, none, true⟩) []
  rw [List.nil_append] at h1
  exact ⟨rfl, t, outcome_pending h2, by rw [← h1]; rfl, by rw [← h1]; rfl⟩

/-- Non-vacuity of `C93_addressed_partial` and `C93_sound`: a data frame to our short address. -/
example : (toShort ⟨[7, 8], rfl⟩ 0xffff).WellFormed ∧ Acceptable (toShort ⟨[7, 8], rfl⟩ 0xffff).bytes ∧
    (∀ a, (toShort ⟨[7, 8], rfl⟩ 0xffff).addressing = some a → a.dst ≠ .absent ∧
      (toShort ⟨[7, 8], rfl⟩ 0xffff).fc.frameType ≠ .beacon) ∧
    isPackageForUs {} ⟨[1, 2, 3, 4, 5, 6, 7, 8], rfl⟩ (toShort ⟨[7, 8], rfl⟩ 0xffff).bytes = .ok true :=
  ⟨⟨by decide, by decide, by decide, by decide⟩,
    ⟨by decide, by decide, 0x41, 0x98, _, rfl, by decide, by decide, by decide, by decide,
      by decide, by decide⟩, by rintro a ⟨⟩; exact ⟨by decide, by decide⟩, by decide⟩

end Dot15d4.Props
