import Verif.Lemmas.Repr
import Mathlib.Data.List.Forall2

/-! # Parsing what the `emit` functions write -/

namespace Dot15d4
open Out Spec Props

/-! ## `for` loops -/

/-- A `for` loop over a list of items. -/
def loopList {α β : Type} (body : α → β → Out (Bool × β)) : List α → β → Out β
  | [], acc => .ok acc
  | a :: l, acc => do
    let t ← body a acc
    if t.1 then .ok t.2 else loopList body l t.2

/-- A `for` loop over an iterator that can be run to its end visits the items in order. -/
theorem forLoop_drain {σ α β : Type} (next : σ → Out (Option α × σ))
    (body : α → β → Out (Bool × β)) : ∀ (fuel : Nat) (s : σ) (items : List α) (s' : σ) (acc : β),
    drain next fuel s = .ok (items, s') → forLoop next body fuel s acc = loopList body items acc := by
  intro fuel
  induction fuel with
  | zero =>
    intro s items s' acc h
    simp only [drain, ok.injEq, Prod.mk.injEq] at h
    obtain ⟨rfl, rfl⟩ := h
    simp [forLoop, loopList]
  | succ n ih =>
    intro s items s' acc h
    rw [drain] at h
    rw [forLoop]
    cases hn : next s with
    | err => simp [hn] at h
    | panic => simp [hn] at h
    | ok r =>
      obtain ⟨o, s1⟩ := r
      rw [hn] at h
      cases o with
      | none =>
        simp only [bind_ok, ok.injEq, Prod.mk.injEq] at h
        obtain ⟨rfl, rfl⟩ := h
        simp [loopList]
      | some a =>
        simp only [bind_ok] at h ⊢
        obtain ⟨t, ht, h⟩ := bind_eq_ok.mp h
        simp only [ok.injEq, Prod.mk.injEq] at h
        obtain ⟨h1, h2⟩ := h
        subst h1
        rw [loopList]
        congr 1
        funext t'
        split
        · rfl
        · exact ih s1 t.1 t.2 _ ht

theorem loop_pushOrErr {α β : Type} (cap : Nat) (parse : α → Out β) :
    ∀ (items : List α) (bs acc : List β), List.Forall₂ (fun a b => parse a = .ok b) items bs →
    acc.length + bs.length ≤ cap →
    loopList (pushOrErr cap parse) items acc = .ok (acc ++ bs) := by
  intro items bs acc h
  induction h generalizing acc with
  | nil => simp [loopList]
  | cons ha h ih =>
    intro hc
    simp only [List.length_cons] at hc
    simp only [loopList, pushOrErr, ha, bind_ok]
    rw [if_pos (by omega)]
    simp only [bind_ok, Bool.false_eq_true, if_false]
    rw [ih _ (by simp; omega)]
    simp

theorem loop_pushOrBreak {α β : Type} (cap : Nat) (parse : α → Out β) :
    ∀ (items : List α) (bs acc : List β), List.Forall₂ (fun a b => parse a = .ok b) items bs →
    acc.length ≤ cap →
    loopList (pushOrBreak cap parse) items acc = .ok ((acc ++ bs).take cap) := by
  intro items bs acc h
  induction h generalizing acc with
  | nil => intro hc; simp [loopList, List.take_of_length_le hc]
  | @cons a b l bs ha h ih =>
    intro hc
    simp only [loopList, pushOrBreak, ha, bind_ok]
    by_cases hlt : acc.length < cap
    · rw [if_pos hlt]
      simp only [bind_ok, Bool.false_eq_true, if_false]
      rw [ih _ (by simp; omega)]
      simp
    · rw [if_neg hlt]
      have : acc.length = cap := by omega
      simp [List.take_append, this]

/-! ## Successive elements -/

/-- The suffixes at which the chunks `cs` start in `cs.flatten ++ r`. -/
def tailsOf : List Bytes → Bytes → List Bytes
  | [], _ => []
  | c :: cs, r => (c ++ (cs.flatten ++ r)) :: tailsOf cs r

theorem desc_append {c : Bytes} (h : 2 ≤ c.length) (r : Bytes) : desc (c ++ r) = desc c := by
  obtain ⟨b0, b1, l, rfl⟩ := exists_cons2 h
  rfl

theorem ieTails_nil (len stop) : ieTails len stop [] = [] := by rw [ieTails]; simp

theorem ieTails_cons {len stop} {c : Bytes} (h : Complete len c) (hs : stop (desc c) = false)
    (r : Bytes) : ieTails len stop (c ++ r) = (c ++ r) :: ieTails len stop r := by
  obtain ⟨h2, hl⟩ := h
  have hd := desc_append h2 r
  rw [ieTails, if_pos (by simp; omega), hd]
  by_cases hr : r = []
  · subst hr
    rw [if_pos (by simp; omega), ieTails_nil]
  · have : 0 < r.length := List.length_pos_iff.mpr hr
    rw [if_neg (by simp [hs]; omega), List.drop_left' (by omega)]

theorem ieTails_stop {len stop} {c : Bytes} (h : Complete len c) (hs : stop (desc c) = true)
    (r : Bytes) : ieTails len stop (c ++ r) = [c ++ r] := by
  obtain ⟨h2, hl⟩ := h
  have hd := desc_append h2 r
  rw [ieTails, if_pos (by simp; omega), hd, if_pos (by simp [hs])]

theorem ieTails_flatten {len stop} : ∀ (cs : List Bytes), (∀ c ∈ cs, Complete len c ∧
    stop (desc c) = false) → ∀ r,
    ieTails len stop (cs.flatten ++ r) = tailsOf cs r ++ ieTails len stop r
  | [], _, r => by simp [tailsOf]
  | c :: cs, h, r => by
    rw [List.flatten_cons, List.append_assoc, ieTails_cons (h c (by simp)).1 (h c (by simp)).2,
      ieTails_flatten cs (fun x hx => h x (by simp [hx]))]
    rfl

theorem ieSize_append (len : BitVec 16 → Nat) (a b : List Bytes) :
    ieSize len (a ++ b) = ieSize len a + ieSize len b := by
  induction a with
  | nil => simp [ieSize]
  | cons x l ih => simp [ieSize, ih, Nat.add_assoc]

theorem ieSize_tailsOf {len : BitVec 16 → Nat} : ∀ (cs : List Bytes), (∀ c ∈ cs, Complete len c) →
    ∀ r, ieSize len (tailsOf cs r) = cs.flatten.length
  | [], _, _ => rfl
  | c :: cs, h, r => by
    obtain ⟨h2, hl⟩ := h c (by simp)
    rw [tailsOf, ieSize, desc_append h2, ieSize_tailsOf cs (fun x hx => h x (by simp [hx])),
      List.flatten_cons, List.length_append]
    omega

theorem nestedChunks_cons {c : Bytes} (h : Complete nestedLen c) (r : Bytes) :
    nestedChunks (c ++ r) = c :: nestedChunks r := by
  obtain ⟨h2, hl⟩ := h
  have hd := desc_append h2 r
  rw [nestedChunks, if_pos (by rw [hd]; simp; omega), hd, List.take_left' (by omega),
    List.drop_left' (by omega)]

theorem nestedChunks_flatten : ∀ (cs : List Bytes), (∀ c ∈ cs, Complete nestedLen c) →
    nestedChunks cs.flatten = cs
  | [], _ => nestedChunks_nil
  | c :: cs, h => by
    rw [List.flatten_cons, nestedChunks_cons (h c (by simp)),
      nestedChunks_flatten cs (fun x hx => h x (by simp [hx]))]

theorem forall₂_tailsOf {β : Type} {P : Bytes → β → Prop} (enc : β → Bytes) (r : Bytes) :
    ∀ (l : List β), (∀ x ∈ l, ∀ q, P (enc x ++ q) x) → List.Forall₂ P (tailsOf (l.map enc) r) l
  | [], _ => .nil
  | x :: l, h => by
    simp only [List.map_cons, tailsOf]
    exact .cons (h x (by simp) _) (forall₂_tailsOf enc r l fun y hy => h y (by simp [hy]))

/-! ## Header elements -/

theorem encodeHeader_tc (tc : TimeCorrectionRepr) :
    encodeHeader (.timeCorrection tc) = 0x02 :: 0x0f :: Spec.timeCorrection tc := by
  rw [encodeHeader, headerElement, show (Spec.timeCorrection tc).length = 2 from rfl]; rfl

theorem header_complete {x : HeaderIeRepr} (h : x ≠ .headerTermination2) :
    Complete headerLen (encodeHeader x) := by
  cases x with
  | timeCorrection tc =>
    refine ⟨by simp [encodeHeader_length, HeaderIeRepr.bufferLen], ?_⟩
    rw [encodeHeader_length, encodeHeader_tc, show desc (0x02 :: 0x0f :: Spec.timeCorrection tc) =
      u16le 0x02 0x0f from rfl, show headerLen (u16le 0x02 0x0f) = 2 by decide]
    rfl
  | headerTermination1 => exact ⟨by decide, by decide⟩
  | headerTermination2 => exact absurd rfl h

theorem header_not_stop {x : HeaderIeRepr} (h : HeaderOk x) :
    headerStop (desc (encodeHeader x)) = false := by
  cases x with
  | timeCorrection tc =>
    rw [encodeHeader_tc, show desc (0x02 :: 0x0f :: Spec.timeCorrection tc) =
      u16le 0x02 0x0f from rfl]
    decide
  | headerTermination1 => exact h.elim
  | headerTermination2 => exact h.elim

theorem HeaderOk.ne {x : HeaderIeRepr} (h : HeaderOk x) : x ≠ .headerTermination2 := by
  intro e; subst e; exact h

theorem parse_timeCorrection (r : TimeCorrectionRepr)
    (h : -2048 ≤ r.timeCorrection.asUs.toInt ∧ r.timeCorrection.asUs.toInt ≤ 2047) :
    TimeCorrectionRepr.parse (Spec.timeCorrection r) = .ok r := by
  obtain ⟨d', d'', h1, h2, h3, h4, -, -⟩ := C20_roundtrip [0, 0] (by decide) r.timeCorrection r.nack h
  have e := emit_timeCorrection r [0, 0] rfl
  simp only [TimeCorrectionRepr.emit, h1, bind_ok, h2, ok.injEq] at e
  rw [← e]
  simp only [TimeCorrectionRepr.parse, h3, h4, bind_ok]

theorem parse_header (x : HeaderIeRepr) (h : HeaderOk x ∨ x = .headerTermination1) (q : Bytes) :
    HeaderIeRepr.parse (encodeHeader x ++ q) = .ok x := by
  cases x with
  | timeCorrection tc =>
    have h : HeaderOk (.timeCorrection tc) := by simpa using h
    have e : encodeHeader (.timeCorrection tc) ++ q =
      0x02 :: 0x0f :: (Spec.timeCorrection tc ++ q) := by rw [encodeHeader_tc]; rfl
    have hid : HeaderIe.wId (u16le 0x02 0x0f) = .timeCorrection := by decide
    have hlen : HeaderIe.wLen (u16le 0x02 0x0f) = 2 := by decide
    have htk : (Spec.timeCorrection tc ++ q).take 2 = Spec.timeCorrection tc :=
      List.take_left' rfl
    rw [e]
    simp only [HeaderIeRepr.parse, HeaderIe.elementId, readU16_cons, bind_ok, hid, HeaderIe.content,
      HeaderIe.len, hlen]
    have e1 : sliceFrom (0x02 :: 0x0f :: (Spec.timeCorrection tc ++ q)) 2 =
      .ok (Spec.timeCorrection tc ++ q) := by simp [sliceFrom]
    have e2 : sliceTo (Spec.timeCorrection tc ++ q) 2 = .ok (Spec.timeCorrection tc) := by
      rw [sliceTo_ok (by rw [List.length_append, show (Spec.timeCorrection tc).length = 2 from rfl]; omega), htk]
    have e3 : TimeCorrection.new (Spec.timeCorrection tc) = .ok (Spec.timeCorrection tc) := rfl
    simp only [e1, e2, e3, bind_ok, parse_timeCorrection tc h]
  | headerTermination1 => rfl
  | headerTermination2 => simp [HeaderOk] at h

/-! ## Nested elements -/

theorem desc_le16 (n : Nat) (h : n < 65536) (c : Bytes) : desc (le16 n ++ c) = BitVec.ofNat 16 n := by
  rw [le16_toNat h]
  simp only [u16bytes, List.cons_append, desc]
  exact u16le_bytes _

theorem nestedCode_lt (r : NestedIeRepr) : nestedCode r ≤ 51200 := by
  cases r <;> simp [nestedCode]

theorem nested_desc (r : NestedIeRepr) (ho : NestedOk r) :
    desc (encodeNested r) = BitVec.ofNat 16 (r.innerLen + nestedCode r) := by
  have h1 := innerLen_lt r ho
  have h2 := nestedCode_lt r
  rw [encodeNested_eq, nestedContent_length r ho, desc_le16 _ (by omega)]

theorem nested_len (r : NestedIeRepr) (ho : NestedOk r) :
    nestedLen (desc (encodeNested r)) = r.innerLen := by
  have h1 := innerLen_lt r ho
  rw [nested_desc r ho]
  generalize r.innerLen = n at *
  cases r <;> simp only [nestedLen, bits, nestedCode, BitVec.toNat_ofNat] <;> split <;> omega

theorem nested_complete (r : NestedIeRepr) (ho : NestedOk r) :
    Complete nestedLen (encodeNested r) := by
  refine ⟨?_, ?_⟩
  · rw [encodeNested_length r ho, NestedIeRepr.bufferLen]; omega
  · rw [encodeNested_length r ho, nested_len r ho]; rfl

theorem nested_subId (r : NestedIeRepr) (n : Nat) (h1 : n < 128) :
    NestedIe.wSubId (BitVec.ofNat 16 (n + nestedCode r)) = r.subId := by
  have hb : ∀ (w : BitVec 16) (lo m : Nat), m ≤ 8 →
      ((w >>> lo) &&& BitVec.ofNat 16 (2 ^ m - 1)).setWidth 8 = BitVec.ofNat 8 (bits w lo m) := by
    intro w lo m hm
    apply BitVec.eq_of_toNat_eq
    rw [BitVec.toNat_setWidth, bits_shift_mask w lo m (by omega), BitVec.toNat_ofNat]
  simp only [NestedIe.wSubId, NestedIe.wLong_eq]
  rw [show (0x000f#16) = BitVec.ofNat 16 (2 ^ 4 - 1) from rfl,
    show (0x003f#16) = BitVec.ofNat 16 (2 ^ 6 - 1) from rfl, hb _ _ _ (by omega),
    hb _ _ _ (by omega)]
  cases r
  case channelHopping =>
    rw [if_pos (by simp only [bits, nestedCode, BitVec.toNat_ofNat]; simp; omega)]
    have : bits (BitVec.ofNat 16 (n + nestedCode (.channelHopping ‹_›))) 11 4 = 9 := by
      simp only [bits, nestedCode, BitVec.toNat_ofNat]; omega
    rw [this]; rfl
  all_goals
    rw [if_neg (by simp only [bits, nestedCode, BitVec.toNat_ofNat]; simp; omega)]
  case tschSynchronization =>
    have : bits (BitVec.ofNat 16 (n + nestedCode (.tschSynchronization ‹_›))) 8 6 = 0x1a := by
      simp only [bits, nestedCode, BitVec.toNat_ofNat]; omega
    rw [this]; rfl
  case tschTimeslot =>
    have : bits (BitVec.ofNat 16 (n + nestedCode (.tschTimeslot ‹_›))) 8 6 = 0x1c := by
      simp only [bits, nestedCode, BitVec.toNat_ofNat]; omega
    rw [this]; rfl
  case tschSlotframeAndLink =>
    have : bits (BitVec.ofNat 16 (n + nestedCode (.tschSlotframeAndLink ‹_›))) 8 6 = 0x1b := by
      simp only [bits, nestedCode, BitVec.toNat_ofNat]; omega
    rw [this]; rfl

theorem parse_sync (r : TschSynchronizationRepr) (h : r.absoluteSlotNumber.toNat < 2 ^ 40) :
    TschSynchronization.new (encodeSync r) = .ok (encodeSync r) ∧
    TschSynchronizationRepr.parse (encodeSync r) = .ok r := by
  obtain ⟨d', d'', h1, h2, h3, h4⟩ := C21_roundtrip_in_range [0, 0, 0, 0, 0, 0] (by decide)
    r.absoluteSlotNumber r.joinMetric h
  have e := emit_sync r [0, 0, 0, 0, 0, 0] rfl
  simp only [TschSynchronizationRepr.emit, h1, bind_ok, h2, ok.injEq] at e
  refine ⟨by simp [TschSynchronization.new, encodeSync, le16], ?_⟩
  rw [← e]
  simp only [TschSynchronizationRepr.parse, h3, h4, bind_ok]

theorem parse_timeslot (r : TschTimeslotRepr) (h : TimeslotOk r) :
    TschTimeslot.new (encodeTimeslot r) = .ok (encodeTimeslot r) ∧
    TschTimeslotRepr.parse (encodeTimeslot r) = .ok r := by
  cases r with
  | default i =>
    have : i = 0 := h
    subst this
    exact ⟨rfl, rfl⟩
  | custom t =>
    obtain ⟨hid, hf⟩ := TimeslotOk.fit h
    have hlen := timingsSize_eq hf
    obtain ⟨d', h1, h2, h3, h4, h5⟩ := C22_roundtrip (List.replicate (timingsSize t) 0) t hid hf
      (by simp)
    have e := emit_timeslot (.custom t) h (List.replicate (timingsSize t) 0)
      (by rw [hlen]; simp)
    simp only [TschTimeslotRepr.emit, h1, ok.injEq] at e
    rw [← e]
    refine ⟨h3, ?_⟩
    simp only [TschTimeslotRepr.parse, h4, if_true, h5, bind_ok]

theorem parse_link {d : Bytes} {r : LinkInformationRepr} (h : LinkReads d (ofLinkRepr r)) :
    LinkInformationRepr.parse d = .ok r := by
  obtain ⟨h1, h2, h3⟩ := h
  simp only [LinkInformationRepr.parse, h1, h2, h3, bind_ok]
  rfl

theorem parse_slotframe {d : Bytes} {r : SlotframeDescriptorRepr} (ho : SlotframeOk r)
    (h : SlotframeReads d (ofSlotframeRepr r)) : SlotframeDescriptorRepr.parse d = .ok r := by
  obtain ⟨h1, h2, -, it, ls, it', h3, h4, -, h5⟩ := h
  simp only [SlotframeDescriptorRepr.parse, h1, h2, h3, bind_ok]
  rw [forLoop_drain _ _ _ _ _ _ _ h4, loop_pushOrErr 4 _ ls r.links []]
  · simp [ofSlotframeRepr]
  · have : (ofSlotframeRepr r).links = r.links.map ofLinkRepr := rfl
    rw [this, List.forall₂_map_right_iff] at h5
    exact h5.imp fun _ _ h => parse_link h
  · simpa using ho.2.1

theorem SlotframeOk.spec {r : SlotframeDescriptorRepr} (h : SlotframeOk r) :
    (ofSlotframeRepr r).links ≠ [] ∧ (ofSlotframeRepr r).links.length < 256 ∧
    ∀ k ∈ (ofSlotframeRepr r).links, k.Valid := by
  obtain ⟨h1, h2, h3⟩ := h
  have e : (ofSlotframeRepr r).links = r.links.map ofLinkRepr := rfl
  refine ⟨?_, ?_, ?_⟩
  · rw [e]; intro h0
    have := congrArg List.length h0
    simp at this
    rw [this] at h1; simp at h1
  · rw [e, List.length_map]; omega
  · intro k hk
    rw [e] at hk
    obtain ⟨x, hx, rfl⟩ := List.mem_map.mp hk
    have key : ∀ o : BitVec 8, o.toNat < 32 → o &&& 0x1f#8 = o := by decide
    exact key _ (h3 x hx)

theorem parse_slotframes (r : TschSlotframeAndLinkRepr)
    (h : r.slotframeDescriptors.length ≤ 3 ∧ ∀ s ∈ r.slotframeDescriptors, SlotframeOk s) :
    TschSlotframeAndLink.new (encodeSlotframes (r.slotframeDescriptors.map ofSlotframeRepr)) =
      .ok (encodeSlotframes (r.slotframeDescriptors.map ofSlotframeRepr)) ∧
    TschSlotframeAndLinkRepr.parse (encodeSlotframes (r.slotframeDescriptors.map ofSlotframeRepr)) =
      .ok r := by
  obtain ⟨h1, ds, it', h2, -, h3⟩ := C23_reads_encoding_partial
    (r.slotframeDescriptors.map ofSlotframeRepr) [] (by rw [List.length_map]; omega)
    (by
      intro s hs
      obtain ⟨x, hx, rfl⟩ := List.mem_map.mp hs
      exact SlotframeOk.spec (h.2 x hx))
  rw [List.append_nil] at h1 h2
  refine ⟨h1, ?_⟩
  rw [TschSlotframeAndLink.descriptors] at h2
  obtain ⟨it, h4, h5⟩ := bind_eq_ok.mp h2
  simp only [TschSlotframeAndLinkRepr.parse, h4, bind_ok]
  rw [forLoop_drain _ _ _ _ _ _ _ h5, loop_pushOrErr 3 _ ds r.slotframeDescriptors []]
  · rfl
  · rw [List.forall₂_map_right_iff] at h3
    have h6 := h.2
    generalize r.slotframeDescriptors = l at *
    clear h1 h h2 h4 h5
    induction h3 with
    | nil => exact .nil
    | cons ha _ ih =>
      exact .cons (parse_slotframe (h6 _ (by simp)) ha) (ih fun s hs => h6 s (by simp [hs]))
  · simpa using h.1

theorem parse_nested (r : NestedIeRepr) (ho : NestedOk r) :
    NestedIeRepr.parse (encodeNested r) = .ok r := by
  have hd := nested_desc r ho
  have hlt := innerLen_lt r ho
  have h2 : 2 ≤ (encodeNested r).length := by
    rw [encodeNested_length r ho, NestedIeRepr.bufferLen]; omega
  have hr := desc_readU16 h2
  have hlen : NestedIe.wLen (desc (encodeNested r)) = r.innerLen := by
    rw [NestedIe.wLen_eq, nested_len r ho]
  have hc : NestedIe.content (encodeNested r) = .ok (nestedContent r) := by
    rw [NestedIe.content, sliceFrom_ok h2, bind_ok, NestedIe.length, hr, bind_ok, bind_ok, hlen,
      encodeNested_eq, List.drop_left' (le16_length _), ← nestedContent_length r ho,
      sliceTo_ok (Nat.le_refl _), List.take_length]
  have hid : NestedIe.subId (encodeNested r) = .ok r.subId := by
    rw [NestedIe.subId, hr, hd, bind_ok, nested_subId r _ hlt]
  rw [NestedIeRepr.parse, hid, hc]
  cases r with
  | tschSynchronization r =>
    obtain ⟨e1, e2⟩ := parse_sync r ho
    simp only [bind_ok, NestedIeRepr.subId, nestedContent, e1, e2]
  | tschTimeslot r =>
    obtain ⟨e1, e2⟩ := parse_timeslot r ho
    simp only [bind_ok, NestedIeRepr.subId, nestedContent, e1, e2]
  | tschSlotframeAndLink r =>
    obtain ⟨e1, e2⟩ := parse_slotframes r ho
    simp only [bind_ok, NestedIeRepr.subId, nestedContent, e1, e2]
  | channelHopping r => rfl

/-! ## Payload elements -/

theorem payload_desc (l : List NestedIeRepr) (ho : PayloadOk (.mlme l)) :
    desc (encodePayload (.mlme l)) =
      BitVec.ofNat 16 (((l.map encodeNested).flatten).length + 2048 + 32768) := by
  have := ho.2.2
  rw [encodePayload, payloadElement, desc_le16 _ (by omega)]

theorem payload_len (l : List NestedIeRepr) (ho : PayloadOk (.mlme l)) :
    payloadLen (desc (encodePayload (.mlme l))) = ((l.map encodeNested).flatten).length := by
  have := ho.2.2
  rw [payload_desc l ho]
  simp only [payloadLen, bits, BitVec.toNat_ofNat]
  omega

theorem payload_complete (r : PayloadIeRepr) (ho : PayloadOk r) :
    Complete payloadLen (encodePayload r) := by
  cases r with
  | payloadTermination => exact ho.elim
  | mlme l =>
    have e : (encodePayload (.mlme l)).length = 2 + ((l.map encodeNested).flatten).length := by
      simp only [encodePayload, payloadElement, List.length_append, le16_length]
    rw [Complete, payload_len l ho, e]
    exact ⟨by omega, by omega⟩

theorem parse_payload (r : PayloadIeRepr) (ho : PayloadOk r) (q : Bytes) :
    PayloadIeRepr.parse (encodePayload r ++ q) = .ok r := by
  cases r with
  | payloadTermination => exact ho.elim
  | mlme l =>
    have h2 : 2 ≤ (encodePayload (.mlme l)).length := (payload_complete _ ho).1
    have hd := payload_desc l ho
    have hlt := ho.2.2
    have hr : readU16 (encodePayload (.mlme l) ++ q) = .ok (desc (encodePayload (.mlme l))) := by
      rw [desc_readU16 (by rw [List.length_append]; omega), desc_append h2]
    have hlen : PayloadIe.wLen (desc (encodePayload (.mlme l))) =
        ((l.map encodeNested).flatten).length := by
      rw [PayloadIe.wLen_eq, payload_len l ho]
    have hc : PayloadIe.content (encodePayload (.mlme l) ++ q) =
        .ok (l.map encodeNested).flatten := by
      rw [PayloadIe.content, sliceFrom_ok (by rw [List.length_append]; omega), bind_ok,
        PayloadIe.length, hr, bind_ok, bind_ok, hlen]
      rw [encodePayload, payloadElement, List.append_assoc, List.drop_left' (le16_length _),
        sliceTo_ok (by simp), List.take_left' rfl]
    have hg : PayloadIe.groupId (encodePayload (.mlme l) ++ q) = .ok .mlme := by
      rw [PayloadIe.groupId, hr, bind_ok, hd, PayloadIe.wId]
      congr 1
      have : ((BitVec.ofNat 16 (((l.map encodeNested).flatten).length + 2048 + 32768) >>> 11) &&&
          0x0007#16).setWidth 8 = 0x01#8 := by
        apply BitVec.eq_of_toNat_eq
        rw [BitVec.toNat_setWidth, show (0x0007#16) = BitVec.ofNat 16 (2 ^ 3 - 1) from rfl,
          bits_shift_mask _ 11 3 (by omega)]
        simp only [bits, BitVec.toNat_ofNat]
        omega
      rw [this]; rfl
    have hn : nestedChunks (l.map encodeNested).flatten = l.map encodeNested := by
      apply nestedChunks_flatten
      intro c hc
      obtain ⟨x, hx, rfl⟩ := List.mem_map.mp hc
      exact nested_complete x (ho.2.1 x hx)
    obtain ⟨s', hdr, -⟩ := drain_nested (((l.map encodeNested).flatten).length + 1)
      (Dot15d4.nestedIter (l.map encodeNested).flatten) (by simp [Dot15d4.nestedIter])
      (by simp [Dot15d4.nestedIter])
    simp only [Dot15d4.nestedIter, Bool.false_eq_true, if_false, List.drop_zero, hn] at hdr
    rw [PayloadIeRepr.parse, hg]
    simp only [bind_ok, PayloadIe.nestedIter, hg, if_true, hc]
    rw [Dot15d4.nestedIter]
    rw [forLoop_drain _ _ _ _ _ _ _ hdr, loop_pushOrBreak 16 _ _ l [] ?_ (by simp)]
    · simp [List.take_of_length_le ho.1]
    · rw [List.forall₂_map_left_iff, List.forall₂_same]
      intro x hx
      exact parse_nested x (ho.2.1 x hx)

end Dot15d4
