import Verif.Lemmas.Frames
import Verif.Props.Macro

/-! # C32-C34: beacons, superframe orders, security levels -/

namespace Dot15d4.Props
open Out Spec

/-! ## C33 -/

/-- **C33**.  The conversions between beacon (superframe) orders and their four-bit codes are mutually
inverse: orders 0..14 stand for themselves, 15 for "on demand" ("inactive"). -/
theorem C33_orders (v : Byte) :
    (v.toNat ≤ 15 → (BeaconOrder.ofU8 v).toU8 = v ∧ (SuperframeOrder.ofU8 v).toU8 = v) ∧
    (v.toNat ≤ 14 → BeaconOrder.ofU8 (BeaconOrder.order v).toU8 = .order v ∧
      SuperframeOrder.ofU8 (SuperframeOrder.order v).toU8 = .order v) ∧
    BeaconOrder.ofU8 BeaconOrder.onDemand.toU8 = .onDemand ∧
    SuperframeOrder.ofU8 SuperframeOrder.inactive.toU8 = .inactive ∧
    (15 ≤ v.toNat → BeaconOrder.ofU8 v = .onDemand ∧ SuperframeOrder.ofU8 v = .inactive) := by
  refine ⟨fun h => ?_, fun h => ?_, rfl, rfl, fun h => ?_⟩
  · by_cases h14 : v.toNat ≤ 14
    · simp [BeaconOrder.ofU8, SuperframeOrder.ofU8, h14, BeaconOrder.toU8, SuperframeOrder.toU8]
    · have : v = 15 := by apply BitVec.eq_of_toNat_eq; simp; omega
      subst this; decide
  · simp [BeaconOrder.toU8, BeaconOrder.ofU8, SuperframeOrder.toU8, SuperframeOrder.ofU8, h]
  · have : ¬ v.toNat ≤ 14 := by omega
    simp [BeaconOrder.ofU8, SuperframeOrder.ofU8, this]

example : (BeaconOrder.ofU8 7).toU8 = 7 ∧ BeaconOrder.ofU8 15 = .onDemand :=
  ⟨((C33_orders 7).1 (by decide)).1, ((C33_orders 15).2.2.2.2 (by decide)).1⟩

/-- The orders read from a superframe specification: the low and the high four bits of its first
byte, 15 meaning "on demand"/"inactive". -/
theorem C33_read (s0 s1 : Byte) :
    SuperframeSpecification.beaconOrder [s0, s1] =
      .ok (if s0.toNat % 16 = 15 then .onDemand else .order (BitVec.ofNat 8 (s0.toNat % 16))) ∧
    SuperframeSpecification.superframeOrder [s0, s1] =
      .ok (if s0.toNat / 16 = 15 then .inactive else .order (BitVec.ofNat 8 (s0.toNat / 16))) := by
  obtain ⟨-, h⟩ := C24_codebase_partial.1
  have hb := h [s0, s1] (by simp [Macro.size, Macro.superframeSpecification, Macro.advance]) 0 _ rfl (by omega)
  have hs := h [s0, s1] (by simp [Macro.size, Macro.superframeSpecification, Macro.advance]) 1 _ rfl (by
    intro j g hj hg
    have : j = 0 := by omega
    subst this
    simp [Macro.superframeSpecification] at hg
    subst hg; decide)
  simp [present, Macro.superframeSpecification, fieldValue, startOf, width, leNat] at hb hs
  have hlt := s0.isLt
  have e1 : (s0.toNat + 256 * s1.toNat) % 16 = s0.toNat % 16 := by omega
  have e2 : (s0.toNat + 256 * s1.toNat) / 16 % 16 = s0.toNat / 16 := by omega
  rw [e1] at hb; rw [e2] at hs
  refine ⟨?_, ?_⟩
  · simp only [SuperframeSpecification.beaconOrder, Macro.getNum, Macro.superframeSpecification, hb, bind_ok]
    by_cases hc : s0.toNat % 16 = 15
    · simp [hc]; decide
    · have : (BitVec.ofNat 8 (s0.toNat % 16)).toNat ≤ 14 := by simp; omega
      simp only [BeaconOrder.ofU8, this, hc, if_true, if_false]
  · simp only [SuperframeSpecification.superframeOrder, Macro.getNum, Macro.superframeSpecification, hs, bind_ok]
    by_cases hc : s0.toNat / 16 = 15
    · simp [hc]; decide
    · have : (BitVec.ofNat 8 (s0.toNat / 16)).toNat ≤ 14 := by simp; omega
      simp only [SuperframeOrder.ofU8, this, hc, if_true, if_false]

/-! ## C34 -/

/-- IEEE 802.15.4 table 9-6: MIC length, authenticity and confidentiality of the security levels
(level 4 is reserved since 2015). -/
def levelTable : Nat → Option (Nat × Bool × Bool)
  | 0 => some (0, false, false)
  | 1 => some (4, true, false)
  | 2 => some (8, true, false)
  | 3 => some (16, true, false)
  | 5 => some (4, true, true)
  | 6 => some (8, true, true)
  | 7 => some (16, true, true)
  | _ => none

/-- The claim. -/
def C34_statement : Prop := ∀ (c : SecurityControl) (m : Nat) (a e : Bool),
  levelTable (c.toNat % 8) = some (m, a, e) →
  SecurityLevel.micLength (SecurityControl.securityLevel c) = m ∧
  SecurityLevel.dataAuthenticity (SecurityControl.securityLevel c) = a ∧
  SecurityLevel.dataConfidentiality (SecurityControl.securityLevel c) = e

theorem C34_false : ¬ C34_statement := fun h => by
  have := (h 5 4 true true (by decide)).2.2
  revert this; decide

/-- A `SecurityLevel` made from any byte reports confidentiality when bit 3 of that byte is set, which
no security level of the standard (0 to 7) has. -/
theorem C34_level_bit (b : Byte) :
    (SecurityLevel.dataConfidentiality b = true ↔ b.toNat / 8 % 2 = 1) ∧
    (b.toNat < 8 → SecurityLevel.dataConfidentiality b = false) ∧
    (SecurityLevel.dataAuthenticity b = true ↔ b.toNat ≠ 0) := by
  revert b; decide

example : SecurityLevel.dataConfidentiality 5 = false ∧ SecurityLevel.dataConfidentiality 13 = true :=
  ⟨(C34_level_bit 5).2.1 (by decide), (C34_level_bit 13).1.mpr (by decide)⟩

/-- Confidentiality is never reported, whatever the control byte. -/
theorem C34_no_confidentiality (c : SecurityControl) :
    SecurityLevel.dataConfidentiality (SecurityControl.securityLevel c) = false := by
  revert c; decide +kernel

/-- Level 4, which the standard reserves (encryption only, in its older editions), is reported as
authenticated and not encrypted, without MIC. -/
theorem C34_level4 (c : SecurityControl) (h : c.toNat % 8 = 4) :
    SecurityLevel.micLength (SecurityControl.securityLevel c) = 0 ∧
    SecurityLevel.dataAuthenticity (SecurityControl.securityLevel c) = true ∧
    SecurityLevel.dataConfidentiality (SecurityControl.securityLevel c) = false := by
  revert c; decide +kernel

example : ((0x0c : SecurityControl)).toNat % 8 = 4 := by decide

/-- What holds: MIC length and authenticity follow the table; the header length is one plus the MIC
length; the other fields are the bits of the control byte. -/
theorem C34_levels_partial (c : SecurityControl) (l : Bytes) :
    (∀ m a e, levelTable (c.toNat % 8) = some (m, a, e) →
      SecurityLevel.micLength (SecurityControl.securityLevel c) = m ∧
      SecurityLevel.dataAuthenticity (SecurityControl.securityLevel c) = a ∧
      AuxSecHeader.len (c :: l) = .ok (1 + m)) ∧
    SecurityControl.keyIdentifierMode c =
      (if c.toNat / 8 % 4 = 0 then .implicit else if c.toNat / 8 % 4 = 1 then .explicit else .unknown) ∧
    SecurityControl.frameCounterSuppression c = c.toNat.testBit 5 ∧
    SecurityControl.asnInNonce c = c.toNat.testBit 6 := by
  have hall : ∀ c : Byte, (∀ m ∈ [0, 4, 8, 16], ∀ a e, levelTable (c.toNat % 8) = some (m, a, e) →
      SecurityLevel.micLength (SecurityControl.securityLevel c) = m ∧
      SecurityLevel.dataAuthenticity (SecurityControl.securityLevel c) = a) ∧
    SecurityControl.keyIdentifierMode c =
      (if c.toNat / 8 % 4 = 0 then .implicit else if c.toNat / 8 % 4 = 1 then .explicit else .unknown) ∧
    SecurityControl.frameCounterSuppression c = c.toNat.testBit 5 ∧
    SecurityControl.asnInNonce c = c.toNat.testBit 6 := by decide +kernel
  refine ⟨fun m a e h => ?_, (hall c).2⟩
  have hm : m ∈ [0, 4, 8, 16] := by
    unfold levelTable at h
    split at h <;> simp at h <;> simp [← h.1]
  obtain ⟨h1, h2⟩ := (hall c).1 m hm a e h
  refine ⟨h1, h2, ?_⟩
  simp [AuxSecHeader.len, AuxSecHeader.securityControl, h1]

example : AuxSecHeader.len [0x06, 1, 2] = .ok 9 :=
  ((C34_levels_partial 0x06 [1, 2]).1 8 true true (by decide)).2.2

/-! ## C32 -/

theorem gtsSpec_cons (g : Byte) (l : Bytes) : GtsInfo.gtsSpec (g :: l) = .ok [g] := by
  simp [GtsInfo.gtsSpec, Macro.getRaw, Macro.get, Macro.gtsInfo, Macro.layout, Macro.layoutFrom,
    Macro.getter, Macro.body, Macro.size, Macro.gtsSpecification, Macro.advance, sliceFrom, sliceTo,
    Macro.new]

theorem descriptorCount_cons (g : Byte) (l : Bytes) :
    GtsSpecification.descriptorCount (g :: l) = .ok (g.toNat % 8) := by
  obtain ⟨-, h⟩ := C24_codebase_partial.2.1
  have hb := h (g :: l) (by simp [Macro.size, Macro.gtsSpecification, Macro.advance]) 0 _ rfl (by omega)
  simp [present, Macro.gtsSpecification, fieldValue, startOf, width, leNat] at hb
  have e1 : (g.toNat + 256 * leNat l) % 8 = g.toNat % 8 := by omega
  rw [e1] at hb
  simp only [GtsSpecification.descriptorCount, Macro.getNum, Macro.gtsSpecification, hb, bind_ok]

theorem gtsSlot_size : Macro.size Macro.gtsSlot = 3 := by decide

theorem gtsLength_cons (g : Byte) (l : Bytes) :
    GtsInfo.length (g :: l) = .ok (1 + g.toNat % 8 * 3) := by
  simp only [GtsInfo.length, gtsSpec_cons, bind_ok, descriptorCount_cons, gtsSlot_size]

theorem pendingSpec_cons (q : Byte) (l : Bytes) : PendingAddress.spec (q :: l) = .ok [q] := by
  simp [PendingAddress.spec, Macro.getRaw, Macro.get, Macro.pendingAddress, Macro.layout,
    Macro.layoutFrom, Macro.getter, Macro.body, Macro.size, Macro.pendingAddressSpecification,
    Macro.advance, sliceFrom, sliceTo, Macro.new]

theorem counts_single (q : Byte) :
    PendingAddress.counts [q] = .ok (q.toNat % 8, q.toNat / 16 % 8) := by
  obtain ⟨-, h⟩ := C24_codebase_partial.2.2.2.1
  have hb := h [q] (by simp [Macro.size, Macro.pendingAddressSpecification, Macro.advance]) 0 _ rfl (by omega)
  have hs := h [q] (by simp [Macro.size, Macro.pendingAddressSpecification, Macro.advance]) 2 _ rfl (by
    intro j g hj hg
    have : j = 0 ∨ j = 1 := by omega
    rcases this with rfl | rfl <;> simp [Macro.pendingAddressSpecification] at hg <;> subst hg <;> decide)
  simp [present, Macro.pendingAddressSpecification, fieldValue, startOf, width, leNat] at hb hs
  simp only [PendingAddress.counts, Macro.getNum, Macro.pendingAddressSpecification, hb, hs, bind_ok]

theorem pendingLength_cons (q : Byte) (l : Bytes) :
    PendingAddress.length (q :: l) = .ok (1 + q.toNat % 8 * 2 + q.toNat / 16 % 8 * 8) := by
  simp only [PendingAddress.length, pendingSpec_cons, bind_ok, counts_single]

/-- The fields of a beacon in order: frame control, sequence number, addressing fields `A`, security
header `H`, superframe specification, GTS specification byte `g` with its list, pending address
specification byte `q` with its addresses, payload. -/
structure BeaconParts where
  (o0 o1 seq s0 s1 g q : Byte)
  (A H G P payload : Bytes)

/-- Their concatenation. -/
def BeaconParts.bytes (x : BeaconParts) : Bytes :=
  [x.o0, x.o1, x.seq] ++ x.A ++ x.H ++ [x.s0, x.s1] ++ ([x.g] ++ x.G) ++ ([x.q] ++ x.P) ++ x.payload

/-- The parts have the lengths announced by the frame control field, the security control byte and
the counts in the two specification bytes. -/
structure BeaconParts.Consistent (x : BeaconParts) : Prop where
  dst : (decodeFc x.o0 x.o1).dstMode ≠ .unknown
  src : (decodeFc x.o0 x.o1).srcMode ≠ .unknown
  addr : ∃ p, fcPans x.o0 x.o1 = some p ∧ x.A.length = fcAddrLen x.o0 x.o1 p
  sec : if (decodeFc x.o0 x.o1).securityEnabled then
      ∃ c t m a e, x.H = c :: t ∧ levelTable (c.toNat % 8) = some (m, a, e) ∧ t.length = m
    else x.H = []
  gts : x.G.length = 3 * (x.g.toNat % 8)
  pending : x.P.length = 2 * (x.q.toNat % 8) + 8 * (x.q.toNat / 16 % 8)

/-- **C32**.  Each beacon accessor returns exactly its part. -/
theorem C32_sections (x : BeaconParts) (h : x.Consistent) :
    Beacon.frameControl x.bytes = .ok [x.o0, x.o1] ∧
    Beacon.sequenceNumber x.bytes = .ok x.seq ∧
    (∃ af, Beacon.addressing x.bytes = .ok af ∧ af.len = .ok x.A.length) ∧
    Beacon.superframeSpecification x.bytes = .ok [x.s0, x.s1] ∧
    Beacon.gtsInfo x.bytes = .ok (([x.g] ++ x.G) ++ (([x.q] ++ x.P) ++ x.payload)) ∧
    GtsInfo.length (([x.g] ++ x.G) ++ (([x.q] ++ x.P) ++ x.payload)) = .ok ([x.g] ++ x.G).length ∧
    Beacon.pendingAddress x.bytes = .ok (([x.q] ++ x.P) ++ x.payload) ∧
    PendingAddress.length (([x.q] ++ x.P) ++ x.payload) = .ok ([x.q] ++ x.P).length ∧
    Beacon.payload x.bytes = .ok (some x.payload) := by
  obtain ⟨o0, o1, seq, s0, s1, g, q, A, H, G, P, pl⟩ := x
  obtain ⟨hd, hs, ⟨p, hp, hA⟩, hsec, hG, hP⟩ := h
  simp only at hd hs hp hA hsec hG hP
  simp only [BeaconParts.bytes]
  generalize hY : ([q] ++ P) ++ pl = Y
  generalize hX : [s0, s1] ++ (([g] ++ G) ++ Y) = X
  have hb : [o0, o1, seq] ++ A ++ H ++ [s0, s1] ++ ([g] ++ G) ++ ([q] ++ P) ++ pl =
      o0 :: o1 :: seq :: (A ++ (H ++ X)) := by
    rw [← hX, ← hY]; simp
  rw [hb]
  have hfc : Beacon.frameControl (o0 :: o1 :: seq :: (A ++ (H ++ X))) = .ok [o0, o1] := by
    simp [Beacon.frameControl, sliceTo]
  have haddr : Beacon.addressing (o0 :: o1 :: seq :: (A ++ (H ++ X))) = .ok ⟨A ++ (H ++ X), [o0, o1]⟩ := by
    simp only [Beacon.addressing, hfc]; simp [sliceFrom]
  have hlen : AddressingFields.len ⟨A ++ (H ++ X), [o0, o1]⟩ = .ok A.length := by
    have hn := C05_new_iff (A ++ (H ++ X)) o0 o1 [] hd hs
    rw [hp] at hn
    have : fcAddrLen o0 o1 p ≤ (A ++ (H ++ X)).length := by rw [List.length_append]; omega
    simp only [this, if_true] at hn
    obtain ⟨p', dp, d, sp, s, rest, e1, k1, k2, k3, k4, -, -, -, -, -, e⟩ := C05_layout _ o0 o1 [] hd hs _ hn
    rw [e, hA]
    rw [hp] at e1; cases e1
    simp only [addressing_length, fcAddrLen, ← k1, ← k2, k3, k4]
  have hend : Beacon.headerEnd (o0 :: o1 :: seq :: (A ++ (H ++ X))) = .ok (3 + A.length + H.length) := by
    simp only [Beacon.headerEnd, haddr, bind_ok, hlen, hfc, fc_security]
    cases he : (decodeFc o0 o1).securityEnabled with
    | false =>
      rw [he] at hsec; simp only [Bool.false_eq_true, if_false] at hsec
      simp [hsec]
    | true =>
      rw [he] at hsec; simp only [if_true] at hsec
      obtain ⟨c, t, m, a, e, rfl, hl, ht⟩ := hsec
      have hdrop : sliceFrom (o0 :: o1 :: seq :: (A ++ (c :: t ++ X))) (3 + A.length) = .ok (c :: t ++ X) := by
        rw [sliceFrom_ok (by simp; omega)]
        have : o0 :: o1 :: seq :: (A ++ (c :: t ++ X)) = ([o0, o1, seq] ++ A) ++ (c :: t ++ X) := by simp
        rw [this, List.drop_left' (by simp; omega)]
      have hx : Beacon.auxSecHeader (o0 :: o1 :: seq :: (A ++ (c :: t ++ X))) = .ok (some (c :: t ++ X)) := by
        simp only [Beacon.auxSecHeader, hfc, bind_ok, fc_security, he, if_true, haddr, hlen, hdrop]
      simp only [if_true, hx, bind_ok, ofSome]
      rw [List.cons_append, ((C34_levels_partial c (t ++ X)).1 m a e hl).2.2, List.length_cons, ht,
        bind_ok]
      congr 1; omega
  have hdropX : ∀ n, n ≤ X.length → sliceFrom (o0 :: o1 :: seq :: (A ++ (H ++ X)))
      (3 + A.length + H.length + n) = .ok (X.drop n) := by
    intro n hn
    rw [sliceFrom_ok (by simp; omega)]
    have : o0 :: o1 :: seq :: (A ++ (H ++ X)) = ([o0, o1, seq] ++ A ++ H) ++ X := by simp
    rw [this, List.drop_append, List.drop_eq_nil_of_le (by simp; omega)]
    simp only [List.nil_append]
    congr 2
    simp; omega
  have hXl : X.length = 2 + (1 + G.length + Y.length) := by rw [← hX]; simp; omega
  have hYl : Y.length = 1 + P.length + pl.length := by rw [← hY]; simp; omega
  have hg : Beacon.gtsInfo (o0 :: o1 :: seq :: (A ++ (H ++ X))) = .ok (([g] ++ G) ++ Y) := by
    simp only [Beacon.gtsInfo, hend, bind_ok]
    rw [hdropX 2 (by omega), ← hX]; rfl
  have hgl : GtsInfo.length (([g] ++ G) ++ Y) = .ok ([g] ++ G).length := by
    simp only [List.cons_append, List.nil_append, gtsLength_cons, List.length_cons, hG]
    congr 1; omega
  have hpa : Beacon.pendingAddress (o0 :: o1 :: seq :: (A ++ (H ++ X))) = .ok Y := by
    simp only [Beacon.pendingAddress, hend, hg, hgl, bind_ok]
    rw [Nat.add_assoc _ 2, hdropX _ (by simp; omega), ← hX, ← List.append_assoc, List.drop_left' (by simp; omega)]
  have hpl : PendingAddress.length Y = .ok ([q] ++ P).length := by
    rw [← hY]
    simp only [List.cons_append, List.nil_append, pendingLength_cons, List.length_cons, hP]
    congr 1; omega
  refine ⟨hfc, by simp [Beacon.sequenceNumber, idx], ⟨_, haddr, hlen⟩, ?_, hg, hgl, hpa, hpl, ?_⟩
  · simp only [Beacon.superframeSpecification, hend, bind_ok]
    have := hdropX 0 (by omega)
    rw [Nat.add_zero, List.drop_zero] at this
    rw [this, bind_ok, ← hX]
    simp [sliceTo]
  · simp only [Beacon.payload, hend, hg, hgl, hpa, hpl, bind_ok]
    rw [Nat.add_assoc _ _ ([q] ++ P).length, Nat.add_assoc _ 2, hdropX _ (by simp; omega), bind_ok, ← hX, ← hY]
    have : [s0, s1] ++ ([g] ++ G ++ ([q] ++ P ++ pl)) = ([s0, s1] ++ ([g] ++ G) ++ ([q] ++ P)) ++ pl := by simp
    rw [this, List.drop_left' (by simp; omega)]

/-- A beacon with one GTS and two pending addresses satisfies the hypotheses. -/
example : (BeaconParts.mk 0x00 0x80 0x17 0xcf 0x80 0x81 0x11 [0xcd, 0xab, 0x34, 0x12] [] [1, 2, 0x35]
    [0xaa, 0xbb, 1, 2, 3, 4, 5, 6, 7, 8] [0x99]).Consistent :=
  ⟨by decide, by decide, ⟨⟨false, true⟩, by decide, by decide⟩, rfl, by decide, by decide⟩

/-! ### Iterating over the pending addresses -/

/-- Calling `next` repeatedly returns these addresses, then `None`. -/
inductive PendingYields : PendingIter → List Address → Prop
  | done (s s' : PendingIter) : pendingNext s = .ok (none, s') → PendingYields s []
  | next (s s' : PendingIter) (a : Address) (as : List Address) :
      pendingNext s = .ok (some a, s') → PendingYields s' as → PendingYields s (a :: as)

theorem pending_ext (es : List (Arr 8)) (tail : Bytes) :
    PendingYields ⟨(es.map Subtype.val).flatten ++ tail, 0, es.length, false⟩ (es.map .extended) := by
  induction es with
  | nil => exact .done _ ⟨[] ++ tail, 0, 0, true⟩ rfl
  | cons e es ih =>
    refine .next _ ⟨(es.map Subtype.val).flatten ++ tail, 0, es.length, false⟩ _ _ ?_ ih
    obtain ⟨e, he⟩ := e
    simp [pendingNext, he, sliceTo, sliceFrom, arrOfSlice, List.take_append, List.drop_append]

theorem pending_short (ss : List (Arr 2)) (es : List (Arr 8)) (tail : Bytes) :
    PendingYields ⟨(ss.map Subtype.val).flatten ++ ((es.map Subtype.val).flatten ++ tail), ss.length,
      es.length, false⟩ (ss.map .short ++ es.map .extended) := by
  induction ss with
  | nil => exact pending_ext es tail
  | cons a ss ih =>
    refine .next _ ⟨(ss.map Subtype.val).flatten ++ ((es.map Subtype.val).flatten ++ tail), ss.length,
      es.length, false⟩ _ _ ?_ ih
    obtain ⟨a, ha⟩ := a
    match a, ha with
    | [x, y], _ => simp [pendingNext, sliceFrom, idx]

/-- **C32**, pending addresses: the iterator returns the announced short addresses, then the
extended ones, in order, and nothing from the payload behind them. -/
theorem C32_pending_addresses (q : Byte) (ss : List (Arr 2)) (es : List (Arr 8)) (payload : Bytes)
    (hs : ss.length = q.toNat % 8) (he : es.length = q.toNat / 16 % 8) :
    ∃ it, PendingAddress.pendingAddresses
        (q :: ((ss.map Subtype.val).flatten ++ (es.map Subtype.val).flatten ++ payload)) = .ok it ∧
      PendingYields it (ss.map .short ++ es.map .extended) := by
  have l1 : (ss.map Subtype.val).flatten.length = ss.length * 2 := by
    clear hs
    induction ss with
    | nil => rfl
    | cons a ss ih => simp only [List.map_cons, List.flatten_cons, List.length_append, ih, a.2, List.length_cons]; omega
  have l2 : (es.map Subtype.val).flatten.length = es.length * 8 := by
    clear he
    induction es with
    | nil => rfl
    | cons a ss ih => simp only [List.map_cons, List.flatten_cons, List.length_append, ih, a.2, List.length_cons]; omega
  refine ⟨⟨(ss.map Subtype.val).flatten ++ ((es.map Subtype.val).flatten ++ []), ss.length, es.length,
    false⟩, ?_, pending_short ss es []⟩
  simp only [PendingAddress.pendingAddresses, pendingSpec_cons, bind_ok, pendingLength_cons, counts_single]
  rw [sliceFrom_ok (by simp), bind_ok, sliceTo_ok (by simp only [List.drop_succ_cons, List.drop_zero, List.length_append, l1, l2]; omega), bind_ok]
  rw [List.drop_succ_cons, List.drop_zero, List.take_left' (by simp only [List.length_append, l1, l2]; omega), hs, he]
  simp

example : ∃ it, PendingAddress.pendingAddresses [0x11, 1, 2, 1, 2, 3, 4, 5, 6, 7, 8, 0x99] = .ok it ∧
    PendingYields it [.short ⟨[1, 2], rfl⟩, .extended ⟨[1, 2, 3, 4, 5, 6, 7, 8], rfl⟩] :=
  C32_pending_addresses 0x11 [⟨[1, 2], rfl⟩] [⟨[1, 2, 3, 4, 5, 6, 7, 8], rfl⟩] [0x99] (by decide) (by decide)

/-! ## C56: the GTS list -/

/-- The claim about the GTS descriptors: `gts_spec().slots()` of a long enough GTS field does not
panic. -/
def C56_statement : Prop := ∀ (g : Byte) (G : Bytes), 1 + 3 * (g.toNat % 8) ≤ G.length →
  Returns (GtsInfo.gtsSpec (g :: G) >>= GtsSpecification.slots)

/-- It is false: `slots` panics whenever there is a descriptor at all, whatever follows, because the
specification is given its single byte only. -/
theorem C56_slots_panic (g : Byte) (G : Bytes) (h : g.toNat % 8 ≠ 0) :
    (GtsInfo.gtsSpec (g :: G) >>= GtsSpecification.slots) = .panic := by
  simp only [gtsSpec_cons, bind_ok, GtsSpecification.slots, descriptorCount_cons, h, if_false]
  simp [sliceFrom, sliceTo]

theorem C56_false : ¬ C56_statement := fun h =>
  h 1 [0, 0, 0, 0] (by decide) (C56_slots_panic 1 _ (by decide))

/-- The GTS field length does not count the directions byte that `slots` expects before the
descriptors (and that the standard prescribes): the two disagree for every nonzero count. -/
theorem C56_directions (g : Byte) (G : Bytes) (h : g.toNat % 8 ≠ 0)
    (hl : 1 + 3 * (g.toNat % 8) ≤ G.length) :
    ∃ it n, GtsSpecification.slots (g :: G) = .ok it ∧ GtsInfo.length (g :: G) = .ok n ∧
      it.data = G.take n ∧ 1 + it.data.length = n + 1 := by
  refine ⟨⟨G.take (1 + g.toNat % 8 * 3), 0, false⟩, 1 + g.toNat % 8 * 3, ?_, gtsLength_cons g G, rfl, ?_⟩
  · simp only [GtsSpecification.slots, descriptorCount_cons, bind_ok, h, if_false, gtsSlot_size]
    rw [sliceFrom_ok (by simp), bind_ok, List.drop_succ_cons, List.drop_zero, sliceTo_ok (by omega), bind_ok]
  · simp; omega

example : ∃ it n, GtsSpecification.slots [0x81, 1, 1, 2, 0x35, 7] = .ok it ∧
    GtsInfo.length [0x81, 1, 1, 2, 0x35, 7] = .ok n ∧ it.data = [1, 1, 2, 0x35, 7].take n ∧
    1 + it.data.length = n + 1 := C56_directions 0x81 [1, 1, 2, 0x35, 7] (by decide) (by decide)

/-- Calling `next` repeatedly returns these slots, then `None`. -/
inductive SlotYields : GtsSlotIter → List GtsSlot → Prop
  | done (s s' : GtsSlotIter) : gtsSlotNext s = .ok (none, s') → SlotYields s []
  | next (s s' : GtsSlotIter) (a : GtsSlot) (as : List GtsSlot) :
      gtsSlotNext s = .ok (some a, s') → SlotYields s' as → SlotYields s (a :: as)

/-- The slots that descriptors `ds` (three bytes each, number `k` first) with directions byte `dir`
stand for: the direction of number `k` is bit `k` of `dir` (set means transmit); the bytes are those
of the descriptor (and what follows). -/
def slotsOf (dir : Byte) : Nat → List (Arr 3) → List GtsSlot
  | _, [] => []
  | k, d :: ds => ⟨((d :: ds).map Subtype.val).flatten,
      if dir.getLsbD k then .transmit else .receive⟩ :: slotsOf dir (k + 1) ds

theorem direction_bit : ∀ (dir : Byte) (k : Nat), k < 8 →
    GtsDirection.ofU8 ((dir >>> k) &&& 1#8) = if dir.getLsbD k then .transmit else .receive := by
  intro dir k hk
  have : (dir >>> k) &&& 1#8 = if dir.getLsbD k then 1#8 else 0#8 := by
    apply BitVec.eq_of_getLsbD_eq
    intro i hi
    rcases Nat.eq_zero_or_pos i with rfl | hp
    · cases h : dir.getLsbD k <;> simp [h, -BitVec.getLsbD_eq_getElem]
    · have : (1#8).getLsbD i = false := by interval_cases i <;> decide
      cases h : dir.getLsbD k <;> simp [this, -BitVec.getLsbD_eq_getElem]
  rw [this]
  cases dir.getLsbD k <;> rfl

theorem flatten3_length (ds : List (Arr 3)) : (ds.map Subtype.val).flatten.length = ds.length * 3 := by
  induction ds with
  | nil => rfl
  | cons a ds ih => simp only [List.map_cons, List.flatten_cons, List.length_append, ih, a.2, List.length_cons]; omega

theorem slotYields_aux (dir : Byte) : ∀ (ds pre : List (Arr 3)), pre.length + ds.length ≤ 7 →
    SlotYields ⟨dir :: ((pre ++ ds).map Subtype.val).flatten, pre.length,
      decide (ds = [] ∧ pre ≠ [])⟩ (slotsOf dir pre.length ds) := by
  intro ds
  induction ds with
  | nil =>
    intro pre _
    refine .done _ ⟨dir :: ((pre ++ []).map Subtype.val).flatten, pre.length,
      decide (([] : List (Arr 3)) = [] ∧ pre ≠ [])⟩ ?_
    rw [gtsSlotNext]
    split
    · rfl
    · rw [if_pos]
      simp only [List.append_nil, List.length_cons, flatten3_length, gtsSlot_size]; omega
  | cons d ds ih =>
    intro pre hl
    simp only [List.length_cons] at hl
    have ih' := ih (pre ++ [d]) (by simp; omega)
    rw [List.append_assoc] at ih'
    rw [List.length_append] at ih'
    refine .next _ ⟨dir :: ((pre ++ d :: ds).map Subtype.val).flatten, pre.length + 1,
      decide (ds = [] ∧ pre ++ [d] ≠ [])⟩ _ _ ?_ ih'
    have hlen : (((pre ++ d :: ds).map Subtype.val).flatten).length = (pre.length + ds.length + 1) * 3 := by
      rw [flatten3_length]; simp; omega
    have hdrop : List.drop (pre.length * 3) ((pre ++ d :: ds).map Subtype.val).flatten =
        ((d :: ds).map Subtype.val).flatten := by
      rw [List.map_append, List.flatten_append, List.drop_left' (flatten3_length pre)]
    have h1 : ¬ (1 + pre.length * 3 ≥ (dir :: ((pre ++ d :: ds).map Subtype.val).flatten).length) := by
      rw [List.length_cons, hlen]; omega
    have h2 : sliceFrom (dir :: ((pre ++ d :: ds).map Subtype.val).flatten) (1 + pre.length * 3) =
        .ok ((d :: ds).map Subtype.val).flatten := by
      rw [sliceFrom_ok (by omega), Nat.add_comm 1, List.drop_succ_cons, hdrop]
    have h3 : GtsSlot.new ((d :: ds).map Subtype.val).flatten
        (if dir.getLsbD pre.length then .transmit else .receive) =
        .ok ⟨((d :: ds).map Subtype.val).flatten, if dir.getLsbD pre.length then .transmit else .receive⟩ := by
      rw [GtsSlot.new, if_pos]
      rw [flatten3_length, gtsSlot_size]; simp
    simp only [gtsSlotNext, gtsSlot_size]
    rw [if_neg (by simp), if_neg h1]
    simp only [idx_zero, bind_ok, h2, direction_bit dir pre.length (by omega), h3, toOption]
    congr 3
    rw [List.length_cons, hlen]
    cases ds with
    | nil => rw [if_pos (by simp; omega)]; simp
    | cons x xs => rw [if_neg (by simp; omega)]; simp

/-- What holds: of a GTS specification reader constructed (`new_unchecked`) over the whole field as
the standard lays it out - specification byte, directions byte if there are descriptors,
descriptors - the iterator returns each descriptor once, in order, with its direction. -/
theorem C56_slots_partial (g dir : Byte) (ds : List (Arr 3)) (rest : Bytes) (h : g.toNat % 8 = ds.length)
    (hne : ds ≠ []) :
    ∃ it, GtsSpecification.slots (g :: dir :: ((ds.map Subtype.val).flatten ++ rest)) = .ok it ∧
      SlotYields it (slotsOf dir 0 ds) := by
  have hp : ds.length ≠ 0 := by simpa using hne
  refine ⟨⟨dir :: (ds.map Subtype.val).flatten, 0, false⟩, ?_, ?_⟩
  · simp only [GtsSpecification.slots, descriptorCount_cons, bind_ok, h, hp, if_false, gtsSlot_size]
    rw [sliceFrom_ok (by simp), bind_ok, List.drop_succ_cons, List.drop_zero,
      sliceTo_ok (by simp only [List.length_cons, List.length_append, flatten3_length]; omega), bind_ok,
      Nat.add_comm 1, List.take_succ_cons, List.take_left' (flatten3_length ds)]
  · have := slotYields_aux dir ds [] (by simp only [List.length_nil]; omega)
    simpa using this

example : ∃ it, GtsSpecification.slots [0x82, 0x02, 1, 2, 0x35, 3, 4, 0x17, 9] = .ok it ∧
    SlotYields it [⟨[1, 2, 0x35, 3, 4, 0x17], .receive⟩, ⟨[3, 4, 0x17], .transmit⟩] :=
  C56_slots_partial 0x82 0x02 [⟨[1, 2, 0x35], rfl⟩, ⟨[3, 4, 0x17], rfl⟩] [9] (by decide) (by decide)

/-- No descriptors: nothing is returned. -/
theorem C56_no_slots (g : Byte) (rest : Bytes) (h : g.toNat % 8 = 0) :
    ∃ it, (GtsInfo.gtsSpec (g :: rest) >>= GtsSpecification.slots) = .ok it ∧ SlotYields it [] :=
  ⟨⟨[], 0, true⟩, by simp [gtsSpec_cons, GtsSpecification.slots, descriptorCount_cons, h],
    .done _ _ rfl⟩

example : slotsOf 0x02 0 [⟨[1, 2, 0x35], rfl⟩, ⟨[3, 4, 0x17], rfl⟩] =
    [⟨[1, 2, 0x35, 3, 4, 0x17], .receive⟩, ⟨[3, 4, 0x17], .transmit⟩] := by decide

/-- **C56**, a single descriptor.  `GtsSlot::new` accepts exactly the buffers of at least three octets;
the address is the first two, the starting slot the lower and the length the upper half of the third. -/
theorem C56_slot_partial (d : GtsDirection) :
    (∀ b : Bytes, b.length < 3 → GtsSlot.new b d = .err) ∧
    ∀ (a0 a1 x : Byte) (rest : Bytes), ∃ s, GtsSlot.new (a0 :: a1 :: x :: rest) d = .ok s ∧
      s.direction = d ∧
      Macro.getRaw Macro.gtsSlot "short_address" s.buffer = .ok [a0, a1] ∧
      Macro.getNum Macro.gtsSlot "starting_slot" s.buffer = .ok (x.toNat % 16) ∧
      Macro.getNum Macro.gtsSlot "length" s.buffer = .ok (x.toNat / 16) := by
  refine ⟨fun b h => ?_, fun a0 a1 x rest => ⟨⟨a0 :: a1 :: x :: rest, d⟩, ?_, rfl, ?_⟩⟩
  · rw [GtsSlot.new, gtsSlot_size, if_neg (by omega)]
  · rw [GtsSlot.new, gtsSlot_size, if_pos (by simp)]
  · obtain ⟨-, h⟩ := C24_codebase_partial.2.2.1
    have hs : Macro.size Macro.gtsSlot ≤ (a0 :: a1 :: x :: rest).length := by
      rw [gtsSlot_size]; simp
    have h1 := h (a0 :: a1 :: x :: rest) hs 1 _ rfl (by
      intro j g hj hg
      have : j = 0 := by omega
      subst this
      simp [Macro.gtsSlot] at hg
      subst hg; decide)
    have h2 := h (a0 :: a1 :: x :: rest) hs 2 _ rfl (by
      intro j g hj hg
      have : j = 0 ∨ j = 1 := by omega
      rcases this with rfl | rfl <;> simp [Macro.gtsSlot] at hg <;> subst hg <;> decide)
    simp [present, Macro.gtsSlot, fieldValue, startOf, width, leNat] at h1 h2
    have l0 := a0.isLt
    have l1 := a1.isLt
    have l2 := x.isLt
    have e1 : (a0.toNat + 256 * (a1.toNat + 256 * (x.toNat + 256 * leNat rest))) / 65536 % 16 = x.toNat % 16 := by
      omega
    have e2 : (a0.toNat + 256 * (a1.toNat + 256 * (x.toNat + 256 * leNat rest))) / 1048576 % 16 = x.toNat / 16 := by
      omega
    rw [e1] at h1; rw [e2] at h2
    refine ⟨rfl, ?_, ?_⟩
    · simp only [Macro.getNum, Macro.gtsSlot, h1, bind_ok]
    · simp only [Macro.getNum, Macro.gtsSlot, h2, bind_ok]

/-- The codes of the directions. -/
theorem C33_direction (v : Byte) :
    (v.toNat ≤ 1 → (GtsDirection.ofU8 v).toU8 = v) ∧
    (GtsDirection.ofU8 v = .receive ↔ v.toNat = 0) ∧
    ∀ d : GtsDirection, GtsDirection.ofU8 d.toU8 = d := by
  refine ⟨?_, ?_, fun d => by cases d <;> rfl⟩ <;> revert v <;> decide +kernel

example : (GtsDirection.ofU8 1).toU8 = 1 := (C33_direction 1).1 (by decide)

end Dot15d4.Props
