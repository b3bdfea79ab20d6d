import Verif.Spec.Beacon
import Verif.Props.Beacon

/-! # C89: beacons as the standard lays them out -/

namespace Dot15d4.Props
open Out Spec

/-- The addressing fields are as long as the frame control field announces, and the numbers fit into
their fields; no security header. -/
structure _root_.Dot15d4.Spec.StdBeacon.Valid (b : StdBeacon) : Prop where
  dst : (decodeFc b.o0 b.o1).dstMode ≠ .unknown
  src : (decodeFc b.o0 b.o1).srcMode ≠ .unknown
  addr : ∃ p, fcPans b.o0 b.o1 = some p ∧ b.addressing.length = fcAddrLen b.o0 b.o1 p
  plain : (decodeFc b.o0 b.o1).securityEnabled = false
  gts : b.gts.length ≤ 7
  slots : ∀ e ∈ b.gts, e.start < 16 ∧ e.slots < 16
  short : b.short.length ≤ 7
  extended : b.extended.length ≤ 7

/-- The accessors of the beacon return the superframe specification, these pending addresses, and this
payload. -/
def ReadsBeacon (o : Bytes) (s0 s1 : Byte) (as : List Address) (payload : Bytes) : Prop :=
  Beacon.superframeSpecification o = .ok [s0, s1] ∧
  (∃ p it, Beacon.pendingAddress o = .ok p ∧ PendingAddress.pendingAddresses p = .ok it ∧
    PendingYields it as) ∧
  Beacon.payload o = .ok (some payload)

/-- **C89**: a beacon is read as it was laid out. -/
def C89_statement : Prop := ∀ b : StdBeacon, b.Valid → ReadsBeacon b.octets b.s0 b.s1 b.pending b.payload

/-- Where the header of an unsecured beacon ends. -/
theorem beacon_headerEnd {o0 o1 seq : Byte} {A X : Bytes}
    (hd : (decodeFc o0 o1).dstMode ≠ .unknown) (hs : (decodeFc o0 o1).srcMode ≠ .unknown)
    (ha : ∃ p, fcPans o0 o1 = some p ∧ A.length = fcAddrLen o0 o1 p) :
    Beacon.headerEnd (o0 :: o1 :: seq :: (A ++ X)) =
      if (decodeFc o0 o1).securityEnabled then AuxSecHeader.len X >>= fun m => .ok (3 + A.length + m)
      else .ok (3 + A.length) := by
  obtain ⟨p, hp, hA⟩ := ha
  have hfc : Beacon.frameControl (o0 :: o1 :: seq :: (A ++ X)) = .ok [o0, o1] := by
    simp [Beacon.frameControl, sliceTo]
  have haddr : Beacon.addressing (o0 :: o1 :: seq :: (A ++ X)) = .ok ⟨A ++ X, [o0, o1]⟩ := by
    simp only [Beacon.addressing, hfc]; simp [sliceFrom]
  have hlen : AddressingFields.len ⟨A ++ X, [o0, o1]⟩ = .ok A.length := by
    have hn := C05_new_iff (A ++ X) o0 o1 [] hd hs
    rw [hp] at hn
    have : fcAddrLen o0 o1 p ≤ (A ++ X).length := by rw [List.length_append]; omega
    simp only [this, if_true] at hn
    obtain ⟨p', dp, d, sp, s, rest, e1, k1, k2, k3, k4, -, -, -, -, -, e⟩ := C05_layout _ o0 o1 [] hd hs _ hn
    rw [e, hA]
    rw [hp] at e1; cases e1
    simp only [addressing_length, fcAddrLen, ← k1, ← k2, k3, k4]
  simp only [Beacon.headerEnd, haddr, bind_ok, hlen, hfc, fc_security]
  cases he : (decodeFc o0 o1).securityEnabled with
  | false => rfl
  | true =>
    have hdrop : sliceFrom (o0 :: o1 :: seq :: (A ++ X)) (3 + A.length) = .ok X := by
      rw [sliceFrom_ok (by simp; omega)]
      have : o0 :: o1 :: seq :: (A ++ X) = ([o0, o1, seq] ++ A) ++ X := by simp
      rw [this, List.drop_left' (by simp; omega)]
    have hx : Beacon.auxSecHeader (o0 :: o1 :: seq :: (A ++ X)) = .ok (some X) := by
      simp only [Beacon.auxSecHeader, hfc, bind_ok, fc_security, he, if_true, haddr, hlen, hdrop]
    simp only [if_true, hx, bind_ok, ofSome]

theorem beacon_slice {o0 o1 seq : Byte} {A X : Bytes} (n : Nat) :
    sliceFrom (o0 :: o1 :: seq :: (A ++ X)) (3 + A.length + n) = sliceFrom X n := by
  by_cases h : n ≤ X.length
  · rw [sliceFrom_ok h, sliceFrom_ok (by simp; omega)]
    have : o0 :: o1 :: seq :: (A ++ X) = ([o0, o1, seq] ++ A) ++ X := by simp
    rw [this, List.drop_append, List.drop_eq_nil_of_le (by simp; omega)]
    simp only [List.nil_append]
    congr 2
    simp; omega
  · simp only [sliceFrom]
    rw [if_neg, if_neg h]
    simp; omega

/-- What the accessors of an unsecured beacon return when the octets after the superframe
specification start with `g`. -/
theorem beacon_reads {o0 o1 seq s0 s1 g : Byte} {A Z : Bytes}
    (hd : (decodeFc o0 o1).dstMode ≠ .unknown) (hs : (decodeFc o0 o1).srcMode ≠ .unknown)
    (ha : ∃ p, fcPans o0 o1 = some p ∧ A.length = fcAddrLen o0 o1 p)
    (hp : (decodeFc o0 o1).securityEnabled = false) :
    let o := o0 :: o1 :: seq :: (A ++ (s0 :: s1 :: g :: Z))
    Beacon.superframeSpecification o = .ok [s0, s1] ∧
    Beacon.gtsInfo o = .ok (g :: Z) ∧
    Beacon.pendingAddress o = sliceFrom Z (3 * (g.toNat % 8)) ∧
    Beacon.payload o = (do
      let p ← sliceFrom Z (3 * (g.toNat % 8))
      let m ← PendingAddress.length p
      let s ← sliceFrom p m
      .ok (some s)) := by
  intro o
  have he : Beacon.headerEnd o = .ok (3 + A.length) := by
    rw [beacon_headerEnd hd hs ha, hp]; rfl
  have h1 : Beacon.superframeSpecification o = .ok [s0, s1] := by
    simp only [Beacon.superframeSpecification, he, bind_ok]
    have := beacon_slice (o0 := o0) (o1 := o1) (seq := seq) (A := A) (X := s0 :: s1 :: g :: Z) 0
    rw [Nat.add_zero] at this
    rw [this]
    simp [sliceFrom, sliceTo]
  have h2 : Beacon.gtsInfo o = .ok (g :: Z) := by
    simp only [Beacon.gtsInfo, he, bind_ok]
    rw [beacon_slice]
    simp [sliceFrom]
  have hsl : ∀ n, sliceFrom o (3 + A.length + 2 + (1 + n)) = sliceFrom Z n := by
    intro n
    rw [Nat.add_assoc, beacon_slice]
    simp only [sliceFrom, List.length_cons]
    have : n + 3 ≤ Z.length + 1 + 1 + 1 ↔ n ≤ Z.length := by omega
    simp only [show 2 + (1 + n) = n + 3 from by omega, List.drop_succ_cons, this]
  have h3 : Beacon.pendingAddress o = sliceFrom Z (3 * (g.toNat % 8)) := by
    simp only [Beacon.pendingAddress, he, h2, bind_ok, gtsLength_cons]
    rw [hsl, Nat.mul_comm]
  refine ⟨h1, h2, h3, ?_⟩
  simp only [Beacon.payload, he, h2, h3, bind_ok, gtsLength_cons]
  by_cases hz : 3 * (g.toNat % 8) ≤ Z.length
  · rw [sliceFrom_ok hz, bind_ok, bind_ok]
    congr 1
    funext m
    rw [Nat.add_assoc _ (1 + _), Nat.add_assoc 1, hsl, Nat.mul_comm]
    congr 1
    simp only [sliceFrom, List.length_drop, List.drop_drop]
    have : 3 * (g.toNat % 8) + m ≤ Z.length ↔ m ≤ Z.length - 3 * (g.toNat % 8) := by omega
    simp only [this]
  · simp [sliceFrom, hz]

theorem specOctet (n m : Nat) (hn : n ≤ 7) (hm : m ≤ 7) :
    (BitVec.ofNat 8 (n + 16 * m) : Byte).toNat % 8 = n ∧
    (BitVec.ofNat 8 (n + 16 * m) : Byte).toNat / 16 % 8 = m := by
  rw [BitVec.toNat_ofNat]; omega

theorem gtsOctet (n : Nat) (p : Bool) (hn : n ≤ 7) :
    (BitVec.ofNat 8 (n + 128 * p.toNat) : Byte).toNat % 8 = n := by
  rw [BitVec.toNat_ofNat]
  cases p <;> simp <;> omega

theorem flatMap_short (l : List (Arr 2)) : l.flatMap (fun a => addrBytes (.short a)) =
    ((l.map Arr.reverse).map Subtype.val).flatten := by
  induction l with
  | nil => rfl
  | cons a l ih => simp only [List.flatMap_cons, ih, List.map_cons, List.flatten_cons]; rfl

theorem flatMap_ext (l : List (Arr 8)) : l.flatMap (fun a => addrBytes (.extended a)) =
    ((l.map Arr.reverse).map Subtype.val).flatten := by
  induction l with
  | nil => rfl
  | cons a l ih => simp only [List.flatMap_cons, ih, List.map_cons, List.flatten_cons]; rfl

/-- The octets of a beacon, by sections. -/
theorem _root_.Dot15d4.Spec.StdBeacon.octets_eq (b : StdBeacon) : b.octets =
    b.o0 :: b.o1 :: b.seq :: (b.addressing ++ (b.s0 :: b.s1 :: (b.gtsField ++ (b.pendingField ++ b.payload)))) := by
  simp [StdBeacon.octets]

/-- An address with its octets in the opposite order. -/
def swapped : Address → Address
  | .absent => .absent
  | .short a => .short a.reverse
  | .extended a => .extended a.reverse

/-- **C89** for beacons without GTS descriptors: everything is read as laid out, except that every
pending address is returned with its octets in the opposite order. -/
theorem C89_swapped_partial (b : StdBeacon) (h : b.Valid) (hg : b.gts = []) :
    ReadsBeacon b.octets b.s0 b.s1 (b.pending.map swapped) b.payload := by
  have hf : b.gtsField = [BitVec.ofNat 8 (0 + 128 * b.permit.toNat)] := by
    simp [StdBeacon.gtsField, hg]
  have hz := gtsOctet 0 b.permit (by omega)
  obtain ⟨hq1, hq2⟩ := specOctet _ _ h.short h.extended
  rw [b.octets_eq, hf, List.cons_append, List.nil_append]
  obtain ⟨r1, -, r3, r4⟩ := beacon_reads (seq := b.seq) (s0 := b.s0) (s1 := b.s1)
    (g := BitVec.ofNat 8 (0 + 128 * b.permit.toNat)) (Z := b.pendingField ++ b.payload) h.dst h.src
    h.addr h.plain
  rw [hz, Nat.mul_zero, sliceFrom_ok (by omega), List.drop_zero] at r3 r4
  have hpf : b.pendingField ++ b.payload =
      BitVec.ofNat 8 (b.short.length + 16 * b.extended.length) ::
        (((b.short.map Arr.reverse).map Subtype.val).flatten ++
          ((b.extended.map Arr.reverse).map Subtype.val).flatten ++ b.payload) := by
    simp only [StdBeacon.pendingField, flatMap_short, flatMap_ext, List.cons_append]
  obtain ⟨it, i1, i2⟩ := C32_pending_addresses
    (BitVec.ofNat 8 (b.short.length + 16 * b.extended.length)) (b.short.map Arr.reverse)
    (b.extended.map Arr.reverse) b.payload (by rw [hq1, List.length_map]) (by rw [hq2, List.length_map])
  refine ⟨r1, ⟨_, it, r3, ?_, ?_⟩, ?_⟩
  · rw [hpf]; exact i1
  · rw [show b.pending.map swapped =
      (b.short.map Arr.reverse).map Address.short ++ (b.extended.map Arr.reverse).map Address.extended from by
      simp [StdBeacon.pending, swapped, Function.comp_def]]
    exact i2
  · rw [r4, bind_ok, hpf, pendingLength_cons, bind_ok, hq1, hq2]
    have l1 : ∀ (n : Nat) (l : List (Arr n)), (l.map Subtype.val).flatten.length = l.length * n := by
      intro n l
      induction l with
      | nil => simp
      | cons a l ih =>
        simp only [List.map_cons, List.flatten_cons, List.length_append, ih, a.2, List.length_cons,
          Nat.succ_mul]
        omega
    have hl : (((b.short.map Arr.reverse).map Subtype.val).flatten ++
        ((b.extended.map Arr.reverse).map Subtype.val).flatten).length =
        b.short.length * 2 + b.extended.length * 8 := by
      rw [List.length_append, l1, l1, List.length_map, List.length_map]
    rw [sliceFrom_ok (by rw [List.length_cons, List.length_append, hl]; omega), bind_ok]
    rw [show 1 + b.short.length * 2 + b.extended.length * 8 =
      (b.short.length * 2 + b.extended.length * 8) + 1 from by omega, List.drop_succ_cons,
      List.drop_left' hl]

/-- What an iterator returns is determined. -/
theorem PendingYields.unique {it : PendingIter} {l m : List Address} (h : PendingYields it l)
    (k : PendingYields it m) : l = m := by
  induction h generalizing m with
  | done s s' e =>
    cases k with
    | done _ _ _ => rfl
    | next _ _ _ _ e' _ => rw [e] at e'; simp at e'
  | next s s' a as e _ ih =>
    cases k with
    | done _ _ e' => rw [e] at e'; simp at e'
    | next _ _ _ _ e' k =>
      rw [e] at e'
      simp only [ok.injEq, Prod.mk.injEq, Option.some.injEq] at e'
      obtain ⟨rfl, rfl⟩ := e'
      rw [ih k]

/-- The statement for a beacon without GTS descriptors. -/
theorem reads_iff (b : StdBeacon) (h : b.Valid) (hg : b.gts = []) :
    ReadsBeacon b.octets b.s0 b.s1 b.pending b.payload ↔ ∀ a ∈ b.pending, swapped a = a := by
  have hr := C89_swapped_partial b h hg
  constructor
  · rintro ⟨-, ⟨p, it, e1, e2, y⟩, -⟩
    obtain ⟨-, ⟨p', it', e1', e2', y'⟩, -⟩ := hr
    rw [e1] at e1'
    simp only [ok.injEq] at e1'
    subst e1'
    rw [e2] at e2'
    simp only [ok.injEq] at e2'
    subst e2'
    have := y'.unique y
    intro a ha
    have := List.map_eq_map_iff.1 (this.trans (List.map_id _).symm) a ha
    simpa using this
  · intro hs
    have : b.pending.map swapped = b.pending := by
      conv => rhs; rw [← List.map_id b.pending]
      exact List.map_eq_map_iff.2 (by simpa using hs)
    rwa [this] at hr

/-- The GTS field of a beacon whose last descriptor is `e`. -/
theorem gtsField_concat {b : StdBeacon} {l : List GtsEntry} {e : GtsEntry} (hg : b.gts = l ++ [e]) :
    ∃ g M, b.gtsField = g :: (M ++ [e.slotOctet]) ∧ M.length = 3 * b.gts.length ∧
      g = BitVec.ofNat 8 (b.gts.length + 128 * b.permit.toNat) := by
  refine ⟨_, BitVec.ofNat 8 (directionBits b.gts) ::
    (l.flatMap GtsEntry.octets ++ addrBytes (.short e.address)), ?_, ?_, rfl⟩
  · have : b.gts ≠ [] := by rw [hg]; simp
    rw [StdBeacon.gtsField, if_neg this]
    rw [hg]
    simp [List.flatMap_append, GtsEntry.octets]
  · have hl : ∀ l : List GtsEntry, (l.flatMap GtsEntry.octets).length = 3 * l.length := by
      intro l
      induction l with
      | nil => rfl
      | cons a l ih =>
        simp only [List.flatMap_cons, List.length_append, ih, List.length_cons, GtsEntry.octets, addrBytes,
          List.length_reverse, a.address.2, List.length_nil]
        omega
    simp only [List.length_cons, List.length_append, hl, hg, addrBytes, List.length_reverse, e.address.2,
      List.length_nil]
    omega

/-- With GTS descriptors, the last octet of the last descriptor is taken for the pending address
specification: its starting slot and its length (without their highest bits) for the numbers of short
and extended pending addresses, and the real specification for the first octet of an address.  The
payload is what follows that many addresses, or there is a panic if the beacon is shorter. -/
theorem C89_descriptors (b : StdBeacon) (h : b.Valid) (l : List GtsEntry) (e : GtsEntry)
    (hg : b.gts = l ++ [e]) :
    Beacon.superframeSpecification b.octets = .ok [b.s0, b.s1] ∧
    Beacon.pendingAddress b.octets = .ok (e.slotOctet :: (b.pendingField ++ b.payload)) ∧
    PendingAddress.length (e.slotOctet :: (b.pendingField ++ b.payload)) =
      .ok (1 + e.start % 8 * 2 + e.slots % 8 * 8) ∧
    Beacon.payload b.octets =
      if e.start % 8 * 2 + e.slots % 8 * 8 ≤ (b.pendingField ++ b.payload).length then
        .ok (some ((b.pendingField ++ b.payload).drop (e.start % 8 * 2 + e.slots % 8 * 8)))
      else .panic := by
  obtain ⟨g, M, hf, hM, hgv⟩ := gtsField_concat hg
  have hz := gtsOctet b.gts.length b.permit h.gts
  rw [← hgv] at hz
  obtain ⟨k1, k2⟩ := h.slots e (by rw [hg]; simp)
  have hq : e.slotOctet.toNat % 8 = e.start % 8 ∧ e.slotOctet.toNat / 16 % 8 = e.slots % 8 := by
    rw [GtsEntry.slotOctet, BitVec.toNat_ofNat]; omega
  have hlen : PendingAddress.length (e.slotOctet :: (b.pendingField ++ b.payload)) =
      .ok (1 + e.start % 8 * 2 + e.slots % 8 * 8) := by
    rw [pendingLength_cons, hq.1, hq.2]
  rw [b.octets_eq, hf, List.cons_append]
  obtain ⟨r1, -, r3, r4⟩ := beacon_reads (seq := b.seq) (s0 := b.s0) (s1 := b.s1)
    (g := g) (Z := M ++ [e.slotOctet] ++ (b.pendingField ++ b.payload)) h.dst h.src
    h.addr h.plain
  rw [hz, sliceFrom_ok (by simp; omega)] at r3 r4
  have hd : (M ++ [e.slotOctet] ++ (b.pendingField ++ b.payload)).drop (3 * b.gts.length) =
      e.slotOctet :: (b.pendingField ++ b.payload) := by
    rw [List.append_assoc, List.drop_left' hM]; rfl
  rw [hd] at r3 r4
  refine ⟨r1, r3, hlen, ?_⟩
  rw [r4, bind_ok, hlen, bind_ok]
  generalize b.pendingField ++ b.payload = Y
  rw [show 1 + e.start % 8 * 2 + e.slots % 8 * 8 = (e.start % 8 * 2 + e.slots % 8 * 8) + 1 from by omega]
  by_cases hc : e.start % 8 * 2 + e.slots % 8 * 8 ≤ Y.length
  · rw [if_pos hc, sliceFrom_ok (by simp; omega)]; rfl
  · rw [if_neg hc]
    simp only [sliceFrom, List.length_cons]
    rw [if_neg (by omega)]; rfl

theorem pendingField_length (b : StdBeacon) :
    b.pendingField.length = 1 + 2 * b.short.length + 8 * b.extended.length := by
  have l1 : ∀ l : List (Arr 2), (l.flatMap (fun a => addrBytes (.short a))).length = 2 * l.length := by
    intro l
    induction l with
    | nil => rfl
    | cons a l ih =>
      rw [List.flatMap_cons, List.length_append, ih, List.length_cons]
      simp only [addrBytes, List.length_reverse, a.2]
      omega
  have l2 : ∀ l : List (Arr 8), (l.flatMap (fun a => addrBytes (.extended a))).length = 8 * l.length := by
    intro l
    induction l with
    | nil => rfl
    | cons a l ih =>
      rw [List.flatMap_cons, List.length_append, ih, List.length_cons]
      simp only [addrBytes, List.length_reverse, a.2]
      omega
  rw [StdBeacon.pendingField, List.length_cons, List.length_append, l1, l2]
  omega

/-- The payload of a beacon with GTS descriptors is never read: an even number of octets is skipped,
and an odd number precedes the payload. -/
theorem C89_payload_missed (b : StdBeacon) (h : b.Valid) (hg : b.gts ≠ []) :
    Beacon.payload b.octets ≠ .ok (some b.payload) := by
  obtain ⟨l, e, hl⟩ : ∃ l e, b.gts = l ++ [e] :=
    ⟨b.gts.dropLast, b.gts.getLast hg, (List.dropLast_concat_getLast hg).symm⟩
  obtain ⟨-, -, -, hp⟩ := C89_descriptors b h l e hl
  rw [hp]
  split
  · intro he
    simp only [ok.injEq, Option.some.injEq] at he
    have := congrArg List.length he
    rw [List.length_drop, List.length_append, pendingField_length] at this
    rename_i hc
    rw [List.length_append, pendingField_length] at hc
    omega
  · exact fun he => by cases he

/-- **C89** holds of a beacon exactly if it has no GTS descriptors and all its pending addresses read the
same backwards. -/
theorem C89_exact (b : StdBeacon) (h : b.Valid) :
    ReadsBeacon b.octets b.s0 b.s1 b.pending b.payload ↔ b.gts = [] ∧ ∀ a ∈ b.pending, swapped a = a := by
  constructor
  · intro hr
    by_cases hg : b.gts = []
    · exact ⟨hg, (reads_iff b h hg).1 hr⟩
    · exact absurd hr.2.2 (C89_payload_missed b h hg)
  · exact fun ⟨hg, hs⟩ => (reads_iff b h hg).2 hs

/-- A GTS descriptor itself is read as laid out, except that its address is returned in the opposite
order. -/
theorem C89_slot (e : GtsEntry) (h : e.start < 16 ∧ e.slots < 16) (d : GtsDirection) (rest : Bytes) :
    ∃ s, GtsSlot.new (e.octets ++ rest) d = .ok s ∧
      (Macro.getRaw Macro.gtsSlot "short_address" s.buffer >>= Address.ofBytes) =
        .ok (swapped (.short e.address)) ∧
      Macro.getNum Macro.gtsSlot "starting_slot" s.buffer = .ok e.start ∧
      Macro.getNum Macro.gtsSlot "length" s.buffer = .ok e.slots := by
  obtain ⟨⟨a, ha⟩, st, sl, tr⟩ := e
  match a, ha with
  | [x, y], _ =>
    obtain ⟨s, k1, -, k2, k3, k4⟩ := (C56_slot_partial d).2 y x (GtsEntry.slotOctet ⟨⟨[x, y], rfl⟩, st, sl, tr⟩) rest
    refine ⟨s, k1, ?_, ?_, ?_⟩
    · rw [k2]; rfl
    · rw [k3, GtsEntry.slotOctet, BitVec.toNat_ofNat]
      simp only at h ⊢
      congr 1; omega
    · rw [k4, GtsEntry.slotOctet, BitVec.toNat_ofNat]
      simp only at h ⊢
      congr 1; omega

/-- A beacon of the coordinator `0x1234` with data for the devices `0x0102` and `0x3333` and one
extended address. -/
def pendingBeacon : StdBeacon where
  o0 := 0x00
  o1 := 0x80
  seq := 7
  addressing := [0xcd, 0xab, 0x34, 0x12]
  s0 := 0xff
  s1 := 0xcf
  permit := true
  gts := []
  short := [⟨[1, 2], rfl⟩, ⟨[0x33, 0x33], rfl⟩]
  extended := [⟨[1, 2, 3, 4, 5, 6, 7, 8], rfl⟩]
  payload := [0xaa, 0xbb]

theorem pendingBeacon_valid : pendingBeacon.Valid where
  dst := by decide
  src := by decide
  addr := ⟨⟨false, true⟩, by decide, by decide⟩
  plain := by decide
  gts := by decide
  slots := by decide
  short := by decide
  extended := by decide

example : ReadsBeacon pendingBeacon.octets 0xff 0xcf [.short ⟨[2, 1], rfl⟩, .short ⟨[0x33, 0x33], rfl⟩,
    .extended ⟨[8, 7, 6, 5, 4, 3, 2, 1], rfl⟩] [0xaa, 0xbb] :=
  C89_swapped_partial pendingBeacon pendingBeacon_valid rfl

/-- The same with a GTS for device `0x0005`, slots 9 and 10. -/
def gtsBeacon : StdBeacon := { pendingBeacon with gts := [⟨⟨[0, 5], rfl⟩, 9, 2, true⟩] }

theorem gtsBeacon_valid : gtsBeacon.Valid where
  dst := by decide
  src := by decide
  addr := ⟨⟨false, true⟩, by decide, by decide⟩
  plain := by decide
  gts := by decide
  slots := by decide
  short := by decide
  extended := by decide

/-- Its fields are said to be one short and two extended addresses, and it is too short for them. -/
example : Beacon.payload gtsBeacon.octets = .panic := by
  obtain ⟨-, -, -, h⟩ := C89_descriptors gtsBeacon gtsBeacon_valid [] _ rfl
  rw [h]
  decide

example : ∃ s, GtsSlot.new [5, 0, 0x29, 1] .transmit = .ok s ∧
      (Macro.getRaw Macro.gtsSlot "short_address" s.buffer >>= Address.ofBytes) =
        .ok (.short ⟨[5, 0], rfl⟩) ∧
      Macro.getNum Macro.gtsSlot "starting_slot" s.buffer = .ok 9 ∧
      Macro.getNum Macro.gtsSlot "length" s.buffer = .ok 2 :=
  C89_slot ⟨⟨[0, 5], rfl⟩, 9, 2, true⟩ (by decide) .transmit [1]

/-- **C89** is false: the addresses are swapped. -/
theorem C89_false : ¬ C89_statement := fun h =>
  absurd ((C89_exact pendingBeacon pendingBeacon_valid).1 (h _ pendingBeacon_valid)).2 (by decide)

end Dot15d4.Props
