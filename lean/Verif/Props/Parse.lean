import Verif.Props.ParseSafe

/-!
# C67: what `FrameRepr::parse` reports of a frame

`FrameSays b f` relates the octets of a received frame to a representation through the accessors
only, whose meaning C01, C05, C11, C15 and C19-C23 give.
-/

namespace Dot15d4.Props
open Out Spec

/-! ## The specification -/

/-- The entries of `items`, in order, are those of `rs`, except that only the first `cap` are kept
and that at least the first one left out is readable. -/
def FirstSay {α β : Type} (rel : α → β → Prop) (cap : Nat) (items : List α) (rs : List β) : Prop :=
  List.Forall₂ rel (items.take cap) rs ∧ ∀ a, items[cap]? = some a → ∃ r, rel a r

/-- What is read of a header element. -/
def HeaderSays (i : HeaderIe) : HeaderIeRepr → Prop
  | .timeCorrection r => HeaderIe.elementId i = .ok .timeCorrection ∧
      ∃ c, HeaderIe.content i = .ok c ∧ 2 ≤ c.length ∧
        TimeCorrection.timeCorrection c = .ok r.timeCorrection ∧ TimeCorrection.nack c = .ok r.nack
  | .headerTermination1 => HeaderIe.elementId i = .ok .headerTermination1
  | .headerTermination2 => HeaderIe.elementId i = .ok .headerTermination2

/-- What is read of a nested element. -/
def NestedSays (i : NestedIe) : NestedIeRepr → Prop
  | .tschSynchronization r => NestedIe.subId i = .ok (.short .tschSynchronization) ∧
      ∃ c, NestedIe.content i = .ok c ∧ 6 ≤ c.length ∧
        TschSynchronization.absoluteSlotNumber c = .ok r.absoluteSlotNumber ∧
        TschSynchronization.joinMetric c = .ok r.joinMetric
  | .tschTimeslot r => NestedIe.subId i = .ok (.short .tschTimeslot) ∧
      ∃ c, NestedIe.content i = .ok c ∧ TschTimeslot.new c = .ok c ∧
        match r with
        | .default n => TschTimeslot.hasTimeslotTimings c = false ∧ TschTimeslot.id c = .ok n
        | .custom t => TschTimeslot.hasTimeslotTimings c = true ∧
            TschTimeslot.timeslotTimings c = .ok t
  | .tschSlotframeAndLink r => NestedIe.subId i = .ok (.short .tschSlotframeAndLink) ∧
      ∃ c ds e, NestedIe.content i = .ok c ∧ c ≠ [] ∧ TschSlotframeAndLink.descriptors c = .ok (ds, e) ∧
        r.slotframeDescriptors.length ≤ 3 ∧
        List.Forall₂ (fun d s => SlotframeReads d (ofSlotframeRepr s) ∧ 0 < s.links.length ∧
          s.links.length ≤ 4) ds r.slotframeDescriptors
  | .channelHopping r => NestedIe.subId i = .ok (.long .channelHopping) ∧
      ∃ c, NestedIe.content i = .ok c ∧ c.head? = some r.hoppingSequenceId

/-- What is read of a payload element: only MLME elements are supported. -/
def PayloadSays (i : PayloadIe) : PayloadIeRepr → Prop
  | .mlme l => PayloadIe.groupId i = .ok .mlme ∧
      ∃ c ns e, PayloadIe.content i = .ok c ∧
        drain nestedNext (c.length + 1) (nestedIter c) = .ok (ns, e) ∧ FirstSay NestedSays 16 ns l
  | .payloadTermination => False

/-- What is read of the information elements. -/
def ElementsSay (ie : InformationElements) (r : InformationElementsRepr) : Prop :=
  ∃ hs e ps e', InformationElements.headerDrain ie = .ok (hs, e) ∧
    InformationElements.payloadDrain ie = .ok (ps, e') ∧
    FirstSay HeaderSays 16 hs r.header ∧ FirstSay PayloadSays 16 ps r.payload

/-- What is read of the addressing fields. -/
def AddressingSays (af : AddressingFields) (r : AddressingFieldsRepr) : Prop :=
  af.dstPanId = .ok r.dstPanId ∧ af.dstAddress = .ok r.dstAddress ∧
  af.srcPanId = .ok r.srcPanId ∧ af.srcAddress = .ok r.srcAddress

/-- Both absent, or both present and related. -/
def OptSays {α β : Type} (rel : α → β → Prop) : Option α → Option β → Prop
  | none, none => True
  | some a, some b => rel a b
  | _, _ => False

/-- What is read of a frame. -/
def FrameSays (b : Bytes) (f : FrameRepr) : Prop :=
  (∃ o0 o1 l, b = o0 :: o1 :: l ∧ f.frameControl = decodeFc o0 o1) ∧
  DataFrame.sequenceNumber b = .ok f.sequenceNumber ∧
  (∃ af, DataFrame.addressing b = .ok af ∧ OptSays AddressingSays af f.addressingFields) ∧
  (∃ ie, DataFrame.informationElements b = .ok ie ∧ OptSays ElementsSay ie f.informationElements) ∧
  DataFrame.payload b = .ok f.payload

/-! ## Loops -/

theorem loop_break_iff {α β : Type} (cap : Nat) (parse : α → Out β) (rel : α → β → Prop) :
    ∀ (items : List α) (acc : List β), (∀ a ∈ items, ∀ b, parse a = .ok b ↔ rel a b) →
    acc.length ≤ cap → ∀ rs,
    (loopList (pushOrBreak cap parse) items acc = .ok rs ↔
      ∃ bs, rs = acc ++ bs ∧ FirstSay rel (cap - acc.length) items bs)
  | [], acc, _, _, rs => by
    simp only [loopList, ok.injEq, FirstSay, List.take_nil, List.forall₂_nil_left_iff,
      List.getElem?_nil, reduceCtorEq, false_implies, implies_true, and_true]
    constructor
    · rintro rfl; exact ⟨[], by simp⟩
    · rintro ⟨bs, rfl, rfl⟩; simp
  | a :: items, acc, h, hc, rs => by
    simp only [loopList, pushOrBreak]
    cases hp : parse a with
    | err =>
      simp only [bind_err, reduceCtorEq, false_iff, not_exists, not_and]
      rintro bs - ⟨h1, h2⟩
      cases hk : cap - acc.length with
      | zero =>
        rw [hk] at h2
        obtain ⟨r, hr⟩ := h2 a (by simp)
        rw [← h a (by simp), hp] at hr; cases hr
      | succ k =>
        rw [hk, List.take_succ_cons] at h1
        cases h1 with
        | cons h1 _ => rw [← h a (by simp), hp] at h1; cases h1
    | panic =>
      simp only [bind_panic, reduceCtorEq, false_iff, not_exists, not_and]
      rintro bs - ⟨h1, h2⟩
      cases hk : cap - acc.length with
      | zero =>
        rw [hk] at h2
        obtain ⟨r, hr⟩ := h2 a (by simp)
        rw [← h a (by simp), hp] at hr; cases hr
      | succ k =>
        rw [hk, List.take_succ_cons] at h1
        cases h1 with
        | cons h1 _ => rw [← h a (by simp), hp] at h1; cases h1
    | ok b =>
      have hb := (h a (by simp) b).mp hp
      by_cases hlt : acc.length < cap
      · simp only [bind_ok, hlt, if_true, Bool.false_eq_true, if_false]
        rw [loop_break_iff cap parse rel items (acc ++ [b]) (fun x hx => h x (by simp [hx]))
          (by simp; omega) rs]
        have e : cap - acc.length = (cap - (acc ++ [b]).length) + 1 := by simp; omega
        rw [e]
        generalize cap - (acc ++ [b]).length = k
        simp only [FirstSay, List.take_succ_cons, List.getElem?_cons_succ]
        constructor
        · rintro ⟨bs, rfl, h1, h2⟩
          exact ⟨b :: bs, by simp, .cons hb h1, h2⟩
        · rintro ⟨bs, rfl, h1, h2⟩
          cases h1 with
          | @cons _ b' _ bs h0 h1 =>
            have : b' = b := by
              have := (h a (by simp) b').mpr h0
              rw [hp] at this; cases this; rfl
            subst this
            exact ⟨bs, by simp, h1, h2⟩
      · simp only [bind_ok, hlt, if_false, if_true, ok.injEq]
        have e : cap - acc.length = 0 := by omega
        rw [e]
        simp only [FirstSay, List.take_zero, List.forall₂_nil_left_iff]
        constructor
        · rintro rfl
          refine ⟨[], by simp, rfl, ?_⟩
          intro a' ha'
          simp only [List.getElem?_cons_zero, Option.some.injEq] at ha'
          exact ⟨b, ha' ▸ hb⟩
        · rintro ⟨bs, rfl, rfl, -⟩; simp

theorem loop_err_iff {α β : Type} (cap : Nat) (parse : α → Out β) (rel : α → β → Prop) :
    ∀ (items : List α) (acc : List β), (∀ a ∈ items, ∀ b, parse a = .ok b ↔ rel a b) →
    acc.length ≤ cap → ∀ rs,
    (loopList (pushOrErr cap parse) items acc = .ok rs ↔
      ∃ bs, rs = acc ++ bs ∧ List.Forall₂ rel items bs ∧ rs.length ≤ cap)
  | [], acc, _, hc, rs => by
    simp only [loopList, ok.injEq, List.forall₂_nil_left_iff]
    constructor
    · rintro rfl; exact ⟨[], by simp, rfl, hc⟩
    · rintro ⟨bs, rfl, rfl, -⟩; simp
  | a :: items, acc, h, hc, rs => by
    simp only [loopList, pushOrErr]
    have key : ∀ b, parse a = .ok b → ∀ b' bs, List.Forall₂ rel (a :: items) (b' :: bs) →
        b' = b := by
      intro b hp b' bs hf
      cases hf with
      | cons h0 _ =>
        have := (h a (by simp) b').mpr h0
        rw [hp] at this; cases this; rfl
    cases hp : parse a with
    | err =>
      simp only [bind_err, reduceCtorEq, false_iff, not_exists, not_and]
      rintro bs - hf
      cases hf with
      | cons h1 _ => rw [← h a (by simp), hp] at h1; cases h1
    | panic =>
      simp only [bind_panic, reduceCtorEq, false_iff, not_exists, not_and]
      rintro bs - hf
      cases hf with
      | cons h1 _ => rw [← h a (by simp), hp] at h1; cases h1
    | ok b =>
      have hb := (h a (by simp) b).mp hp
      by_cases hlt : acc.length < cap
      · simp only [bind_ok, hlt, if_true, Bool.false_eq_true, if_false]
        rw [loop_err_iff cap parse rel items (acc ++ [b]) (fun x hx => h x (by simp [hx]))
          (by simp; omega) rs]
        constructor
        · rintro ⟨bs, rfl, h1, h2⟩
          exact ⟨b :: bs, by simp, .cons hb h1, h2⟩
        · rintro ⟨bs, rfl, h1, h2⟩
          cases bs with
          | nil => cases h1
          | cons b' bs =>
            have e := key b hp b' bs h1
            subst e
            cases h1 with
            | cons h0 h1 => exact ⟨bs, by simp, h1, h2⟩
      · simp only [bind_ok, hlt, if_false, bind_err, reduceCtorEq, false_iff, not_exists, not_and]
        rintro bs rfl h1 h2
        cases h1 with
        | cons h0 h1 => simp at h2; omega

/-! ## Single elements -/

theorem header_parse_iff (i : HeaderIe) (r : HeaderIeRepr) :
    HeaderIeRepr.parse i = .ok r ↔ HeaderSays i r := by
  rw [HeaderIeRepr.parse]
  cases hid : HeaderIe.elementId i with
  | err => cases r <;> simp [HeaderSays, hid]
  | panic => cases r <;> simp [HeaderSays, hid]
  | ok id =>
    simp only [bind_ok]
    cases id <;> try (cases r <;> simp [HeaderSays, hid]; done)
    cases hc : HeaderIe.content i with
    | err => cases r <;> simp [HeaderSays, hid, hc]
    | panic => cases r <;> simp [HeaderSays, hid, hc]
    | ok c =>
      simp only [bind_ok]
      by_cases h2 : 2 ≤ c.length
      · obtain ⟨e, t, n, g1, g2, -⟩ := C20_reader_range c h2
        simp only [e, TimeCorrectionRepr.parse, g1, g2, bind_ok, ok.injEq]
        cases r with
        | timeCorrection r =>
          obtain ⟨rt, rn⟩ := r
          simp [HeaderSays, hid, hc, h2, g1, g2]
        | headerTermination1 => simp [HeaderSays, hid]
        | headerTermination2 => simp [HeaderSays, hid]
      · rw [C20_short c (Nat.lt_of_not_le h2)]
        cases r <;> simp [HeaderSays, hid, hc, h2]

theorem link_parse_iff (k : LinkInformation) (r : LinkInformationRepr) :
    LinkInformationRepr.parse k = .ok r ↔ LinkReads k (ofLinkRepr r) := by
  constructor
  · intro h
    rw [LinkInformationRepr.parse] at h
    obtain ⟨a, h1, h⟩ := bind_eq_ok.mp h
    obtain ⟨b, h2, h⟩ := bind_eq_ok.mp h
    obtain ⟨c, h3, h⟩ := bind_eq_ok.mp h
    cases h
    exact ⟨h1, h2, h3⟩
  · exact parse_link

theorem slotframe_parse_iff (t : SlotframeDescriptor) (hd sz n it)
    (h1 : SlotframeDescriptor.handle t = .ok hd) (h2 : SlotframeDescriptor.size t = .ok sz)
    (h3 : SlotframeDescriptor.links t = .ok n)
    (h4 : SlotframeDescriptor.linkIter t = .ok it)
    (h5 : n ≠ 0 → ∃ ls it'', drain linkNext (it.data.length + 2) it = .ok (ls, it'') ∧
          linkNext it'' = .ok (none, it'') ∧ ls.length = n.toNat) (r : SlotframeDescriptorRepr) :
    SlotframeDescriptorRepr.parse t = .ok r ↔
      (SlotframeReads t (ofSlotframeRepr r) ∧ 0 < r.links.length ∧ r.links.length ≤ 4) := by
  have hl : 4 ≤ List.length t := by
    by_contra hlt
    rw [SlotframeDescriptor.links, idx_ge (by omega)] at h3
    cases h3
  by_cases hn : n = 0
  · subst hn
    rw [C31_slotframe_hazard_panics t hl h3]
    simp only [reduceCtorEq, false_iff, not_and]
    rintro ⟨-, -, g, -⟩ hp hle
    rw [h3] at g
    have : (ofSlotframeRepr r).links.length = r.links.length := by simp [ofSlotframeRepr]
    rw [this] at g
    simp only [ok.injEq] at g
    have := congrArg BitVec.toNat g
    simp at this
    omega
  · obtain ⟨ls, it'', g1, g2, g3⟩ := h5 hn
    have hpos : 0 < n.toNat := by
      rcases Nat.eq_zero_or_pos n.toNat with h | h
      · exact absurd (BitVec.eq_of_toNat_eq (by simpa using h)) hn
      · exact h
    rw [SlotframeDescriptorRepr.parse, h4, h1, h2]
    simp only [bind_ok]
    rw [forLoop_drain _ _ _ _ _ _ _ g1]
    have hlen : ∀ (l : List LinkInformationRepr),
        List.Forall₂ (fun k r => LinkReads k (ofLinkRepr r)) ls l → l.length = n.toNat :=
      fun l h => by rw [← h.length_eq, g3]
    constructor
    · intro h
      obtain ⟨l, e1, e2⟩ := bind_eq_ok.mp h
      rw [loop_err_iff 4 _ (fun k r => LinkReads k (ofLinkRepr r)) ls []
        (fun a _ b => link_parse_iff a b) (by simp)] at e1
      obtain ⟨bs, hbs, f1, f2⟩ := e1
      rw [List.nil_append] at hbs
      subst hbs
      simp only [ok.injEq] at e2
      subst e2
      have hb := hlen _ f1
      refine ⟨⟨h1, h2, ?_, it, ls, it'', h4, g1, g2, ?_⟩, by rw [hb]; exact hpos, f2⟩
      · rw [h3]; simp [ofSlotframeRepr, hb]
      · show List.Forall₂ LinkReads ls (l.map ofLinkRepr)
        rw [List.forall₂_map_right_iff]; exact f1
    · rintro ⟨⟨k1, k2, -, it2, ls2, e2, k3, k4, -, k5⟩, -, hle⟩
      rw [h4] at k3; cases k3
      rw [g1] at k4; cases k4
      have k5' : List.Forall₂ LinkReads ls (r.links.map ofLinkRepr) := k5
      rw [List.forall₂_map_right_iff] at k5'
      have := (loop_err_iff 4 LinkInformationRepr.parse (fun k r => LinkReads k (ofLinkRepr r)) ls []
        (fun a _ b => link_parse_iff a b) (by simp) r.links).mpr ⟨r.links, by simp, k5', hle⟩
      rw [this]
      rw [h1] at k1; rw [h2] at k2
      cases k1; cases k2
      rfl

theorem slotframes_parse_iff (c : Bytes) (hc : c ≠ []) (r : TschSlotframeAndLinkRepr) :
    TschSlotframeAndLinkRepr.parse c = .ok r ↔
      ∃ ds e, TschSlotframeAndLink.descriptors c = .ok (ds, e) ∧
        r.slotframeDescriptors.length ≤ 3 ∧
        List.Forall₂ (fun d s => SlotframeReads d (ofSlotframeRepr s) ∧ 0 < s.links.length ∧
          s.links.length ≤ 4) ds r.slotframeDescriptors := by
  obtain ⟨e, ds, it, g1, -, g2⟩ := C23_reads_safe c hc
  have g1' := g1
  rw [TschSlotframeAndLink.descriptors] at g1'
  obtain ⟨it0, k1, k2⟩ := bind_eq_ok.mp g1'
  rw [TschSlotframeAndLinkRepr.parse, k1]
  simp only [bind_ok]
  rw [forLoop_drain _ _ _ _ _ _ _ k2]
  have hiff : ∀ t ∈ ds, ∀ s, SlotframeDescriptorRepr.parse t = .ok s ↔
      (SlotframeReads t (ofSlotframeRepr s) ∧ 0 < s.links.length ∧ s.links.length ≤ 4) := by
    intro t ht s
    obtain ⟨hd, sz, n, it', m1, m2, m3, m4, m5⟩ := g2 t ht
    refine slotframe_parse_iff t hd sz n it' m1 m2 m3 m4 (fun hn => ?_) s
    obtain ⟨ls, it'', q1, q2, q3, -⟩ := m5 hn
    exact ⟨ls, it'', q1, q2, q3⟩
  have hl := loop_err_iff 3 _ _ ds [] hiff (by simp)
  constructor
  · intro h
    obtain ⟨l, e1, e2⟩ := bind_eq_ok.mp h
    obtain ⟨bs, rfl, f1, f2⟩ := (hl l).mp e1
    simp only [List.nil_append, ok.injEq] at f2 e2
    subst e2
    exact ⟨ds, it, g1, f2, f1⟩
  · rintro ⟨ds', e', h1, h2, h3⟩
    rw [g1] at h1; cases h1
    rw [(hl r.slotframeDescriptors).mpr ⟨_, by simp, h3, h2⟩]
    rfl

theorem nested_parse_iff (i : NestedIe) (r : NestedIeRepr) :
    NestedIeRepr.parse i = .ok r ↔ NestedSays i r := by
  rw [NestedIeRepr.parse]
  cases hid : NestedIe.subId i with
  | err => cases r <;> simp [NestedSays, hid]
  | panic => cases r <;> simp [NestedSays, hid]
  | ok id =>
    simp only [bind_ok]
    cases hc : NestedIe.content i with
    | err => split <;> cases r <;> simp [NestedSays, hid, hc]
    | panic => split <;> cases r <;> simp_all [NestedSays]
    | ok c =>
      split
      · simp only [bind_ok]
        by_cases h6 : 6 ≤ c.length
        · match c, h6, hc with
          | b0 :: b1 :: b2 :: b3 :: b4 :: b5 :: l, _, hc =>
            obtain ⟨e1, e2, a, e3, -⟩ := C21_read b0 b1 b2 b3 b4 b5 l
            simp only [e1, TschSynchronizationRepr.parse, e2, e3, bind_ok, ok.injEq]
            cases r with
            | tschSynchronization r =>
              obtain ⟨x, y⟩ := r
              simp [NestedSays, hid, hc, e2, e3]
            | _ => simp [NestedSays, hid]
        · simp only [TschSynchronization.new, h6, if_false, bind_err, reduceCtorEq, false_iff]
          cases r <;> simp [NestedSays, hid, hc, h6]
      · simp only [bind_ok]
        have hnew : TschTimeslot.new c = .ok c ∨ TschTimeslot.new c = .err := by
          cases c with
          | nil => simp [TschTimeslot.new]
          | cons x c =>
            simp only [TschTimeslot.new, TschTimeslot.id]
            simp only [List.length_cons, idx_zero, bind_ok]
            split
            · simp
            · split
              · simp
              · split <;> simp
        rcases hnew with hn | hn
        · simp only [hn, bind_ok, TschTimeslotRepr.parse]
          by_cases ht : TschTimeslot.hasTimeslotTimings c = true
          · simp only [ht, if_true]
            cases hT : TschTimeslot.timeslotTimings c with
            | ok t =>
              cases r with
              | tschTimeslot r => cases r <;> simp [NestedSays, hid, hc, hn, ht, hT]
              | _ => simp [NestedSays, hid]
            | err =>
              cases r with
              | tschTimeslot r => cases r <;> simp [NestedSays, hid, hc, hn, ht, hT]
              | _ => simp [NestedSays, hid]
            | panic =>
              cases r with
              | tschTimeslot r => cases r <;> simp [NestedSays, hid, hc, hn, ht, hT]
              | _ => simp [NestedSays, hid]
          · simp only [ht, Bool.false_eq_true, if_false]
            cases hT : TschTimeslot.id c with
            | ok t =>
              cases r with
              | tschTimeslot r => cases r <;> simp [NestedSays, hid, hc, hn, ht, hT]
              | _ => simp [NestedSays, hid]
            | err =>
              cases r with
              | tschTimeslot r => cases r <;> simp [NestedSays, hid, hc, hn, ht, hT]
              | _ => simp [NestedSays, hid]
            | panic =>
              cases r with
              | tschTimeslot r => cases r <;> simp [NestedSays, hid, hc, hn, ht, hT]
              | _ => simp [NestedSays, hid]
        · simp only [hn, bind_err, reduceCtorEq, false_iff]
          cases r <;> simp [NestedSays, hid, hc, hn]
      · simp only [bind_ok]
        by_cases hne : c = []
        · subst hne
          simp only [TschSlotframeAndLink.new, List.isEmpty_nil, if_true, bind_err, reduceCtorEq,
            false_iff]
          cases r <;> simp [NestedSays, hid, hc]
        · rw [(C23_reads_safe c hne).1, bind_ok]
          have hiff := slotframes_parse_iff c hne
          constructor
          · intro h
            obtain ⟨s, h1, h2⟩ := bind_eq_ok.mp h
            cases h2
            obtain ⟨ds, e, h3, h4, h5⟩ := (hiff s).mp h1
            exact ⟨hid, c, ds, e, hc, hne, h3, h4, h5⟩
          · intro h
            cases r with
            | tschSlotframeAndLink s =>
              obtain ⟨-, c', ds, e, h1, -, h3, h4, h5⟩ := h
              rw [hc] at h1; cases h1
              rw [(hiff s).mpr ⟨ds, e, h3, h4, h5⟩]
              rfl
            | _ => simp [NestedSays, hid] at h
      · simp only [bind_ok]
        cases c with
        | nil =>
          simp only [ChannelHopping.new, List.isEmpty_nil, if_true, bind_err, reduceCtorEq,
            false_iff]
          cases r <;> simp [NestedSays, hid, hc]
        | cons x c =>
          simp only [ChannelHopping.new, List.isEmpty_cons, Bool.false_eq_true, if_false, bind_ok,
            ChannelHoppingRepr.parse, ChannelHopping.hoppingSequenceId, idx_zero, ok.injEq]
          cases r with
          | channelHopping r =>
            obtain ⟨y⟩ := r
            simp [NestedSays, hid, hc]
          | _ => simp [NestedSays, hid]
      · rename_i h1 h2 h3 h4
        cases r <;> simp only [NestedSays, hid, reduceCtorEq, false_iff, not_and, ok.injEq]
        · intro h; exact absurd h h1
        · intro h; exact absurd h h2
        · intro h; exact absurd h h3
        · intro h; exact absurd h h4

theorem payload_parse_iff (i : PayloadIe) (hr : Returns (PayloadIe.content i)) (r : PayloadIeRepr) :
    PayloadIeRepr.parse i = .ok r ↔ PayloadSays i r := by
  rw [PayloadIeRepr.parse]
  cases hg : PayloadIe.groupId i with
  | err => cases r <;> simp [PayloadSays, hg]
  | panic => cases r <;> simp [PayloadSays, hg]
  | ok g =>
    simp only [bind_ok]
    cases g <;> try (cases r <;> simp [PayloadSays, hg]; done)
    cases hc : PayloadIe.content i with
    | panic => rw [hc] at hr; simp at hr
    | err => cases r <;> simp [PayloadSays, hg, hc, PayloadIe.nestedIter]
    | ok q =>
      rw [C19_nested_only_mlme i .mlme q hg hc]
      simp only [if_true, bind_ok]
      obtain ⟨cs, e, rest, m1, -⟩ := C19_nested_iteration q
      have hdat : (nestedIter q).data = q := rfl
      rw [hdat, forLoop_drain _ _ _ _ _ _ _ m1]
      have hl := loop_break_iff 16 _ _ cs [] (fun a _ b => nested_parse_iff a b) (by simp)
      constructor
      · intro h
        obtain ⟨l, h1, h2⟩ := bind_eq_ok.mp h
        obtain ⟨bs, hb, h3⟩ := (hl l).mp h1
        rw [List.nil_append] at hb
        subst hb
        cases h2
        exact ⟨hg, q, cs, e, hc, m1, h3⟩
      · intro h
        cases r with
        | payloadTermination => cases h
        | mlme l =>
          obtain ⟨-, q', cs', e', h1, h2, h3⟩ := h
          rw [hc] at h1; cases h1
          rw [m1] at h2; cases h2
          rw [(hl l).mpr ⟨l, by simp, h3⟩]
          rfl

theorem elements_parse_iff (b ie : Bytes) (h : InformationElements.new b = .ok ie)
    (r : InformationElementsRepr) :
    InformationElementsRepr.parse ie = .ok r ↔ ElementsSay ie r := by
  obtain ⟨-, hs, ps, rest, hi, pi, e1, e2, -, -, -, -, d1, -, d2, -, r1, r2, -, -⟩ :=
    C15_partition b ie h
  have d1' := d1
  rw [InformationElements.headerDrain] at d1'
  have d2' := d2
  rw [InformationElements.payloadDrain] at d2'
  obtain ⟨it, k1, k2⟩ := bind_eq_ok.mp d2'
  rw [InformationElementsRepr.parse, forLoop_drain _ _ _ _ _ _ _ d1', k1]
  simp only [bind_ok]
  rw [forLoop_drain _ _ _ _ _ _ _ k2]
  have l1 := loop_break_iff 16 _ _ hi [] (fun a _ b => header_parse_iff a b) (by simp)
  have l2 := loop_break_iff 16 _ _ pi []
    (fun a ha b => payload_parse_iff a (returns_of_map r2.1 a ha) b) (by simp)
  constructor
  · intro h
    obtain ⟨x, h1, h⟩ := bind_eq_ok.mp h
    obtain ⟨y, h2, h⟩ := bind_eq_ok.mp h
    obtain ⟨xs, hx, h3⟩ := (l1 x).mp h1
    obtain ⟨ys, hy, h4⟩ := (l2 y).mp h2
    rw [List.nil_append] at hx hy
    subst hx hy
    cases h
    exact ⟨hi, e1, pi, e2, d1, d2, h3, h4⟩
  · rintro ⟨hi', e1', pi', e2', h1, h2, h3, h4⟩
    rw [d1] at h1; cases h1
    rw [d2] at h2; cases h2
    rw [(l1 r.header).mpr ⟨_, by simp, h3⟩, (l2 r.payload).mpr ⟨_, by simp, h4⟩]
    rfl

theorem addressing_parse_iff (af : AddressingFields) (r : AddressingFieldsRepr) :
    AddressingFieldsRepr.parse af = .ok r ↔ AddressingSays af r := by
  rw [AddressingFieldsRepr.parse]
  constructor
  · intro h
    obtain ⟨a, h1, h⟩ := bind_eq_ok.mp h
    obtain ⟨b, h2, h⟩ := bind_eq_ok.mp h
    obtain ⟨c, h3, h⟩ := bind_eq_ok.mp h
    obtain ⟨d, h4, h⟩ := bind_eq_ok.mp h
    cases h
    exact ⟨h1, h2, h3, h4⟩
  · rintro ⟨h1, h2, h3, h4⟩
    rw [h1, h2, h3, h4]
    rfl

theorem mapOpt_iff {α β : Type} (f : α → Out β) (rel : α → β → Prop) (o : Option α)
    (h : ∀ a, o = some a → ∀ b, f a = .ok b ↔ rel a b) (r : Option β) :
    mapOpt f o = .ok r ↔ OptSays rel o r := by
  cases o with
  | none => cases r <;> simp [mapOpt, OptSays]
  | some a =>
    have h := h a rfl
    simp only [mapOpt]
    constructor
    · intro hb
      obtain ⟨b, h1, h2⟩ := bind_eq_ok.mp hb
      cases h2
      exact (h b).mp h1
    · intro hb
      cases r with
      | none => cases hb
      | some b => rw [(h b).mpr hb]; rfl

/-! ## C67 -/

/-- **C67**, exactly what `FrameRepr::parse` reports, for every octet string `DataFrame::new`
accepts. -/
theorem C67_parse_iff (b : Bytes) (h : DataFrame.new b = .ok b) (f : FrameRepr) :
    FrameRepr.parse b = .ok f ↔ FrameSays b f := by
  have hacc : Acceptable b := by
    rcases C09_new b with ⟨h', -⟩ | ⟨-, h'⟩
    · exact h'
    · rw [h] at h'; cases h'
  obtain ⟨o0, o1, seq, A, I, R, af, ie, hb, g1, g2, -, g4, -, -, -, g7, g8, -, -, g10⟩ :=
    splits_data b hacc
  simp only [dataApi] at g1 g2 g4 g7 g10
  rw [FrameRepr.parse, g1, bind_ok, FrameControlRepr.parse_cons, wRepr_eq_spec, bind_ok, g4,
    bind_ok, g7]
  have ha := mapOpt_iff AddressingFieldsRepr.parse AddressingSays af
    (fun a _ b => addressing_parse_iff a b)
  have he := mapOpt_iff InformationElementsRepr.parse ElementsSay ie (fun x hx r => by
    subst hx
    obtain ⟨g, g', -⟩ := g8
    exact elements_parse_iff _ _ g' r)
  rw [g2, g10]
  constructor
  · intro h
    obtain ⟨a, h1, h⟩ := bind_eq_ok.mp h
    rw [bind_ok] at h
    obtain ⟨e, h2, h⟩ := bind_eq_ok.mp h
    simp only [bind_ok, ok.injEq] at h
    subst h
    exact ⟨⟨o0, o1, _, by rw [hb]; simp; rfl, rfl⟩, g2, ⟨af, g4, (ha a).mp h1⟩,
      ⟨ie, g7, (he e).mp h2⟩, g10⟩
  · rintro ⟨⟨p0, p1, l, hp, hf⟩, h2, ⟨af', h3, h3'⟩, ⟨ie', h4, h4'⟩, h5⟩
    rw [g2] at h2; rw [g10] at h5
    rw [g4] at h3; cases h3
    rw [g7] at h4; cases h4
    rw [(ha f.addressingFields).mpr h3', bind_ok, bind_ok, (he f.informationElements).mpr h4']
    have : p0 = o0 ∧ p1 = o1 := by
      rw [hb] at hp
      simp at hp
      exact ⟨hp.1.symm, hp.2.1.symm⟩
    obtain ⟨rfl, rfl⟩ := this
    simp only [ok.injEq] at h2 h5
    simp only [bind_ok, ok.injEq]
    obtain ⟨a, b, c, d, e⟩ := f
    simp only at h2 h5 hf
    simp [h2, h5, hf]

/-- A frame with two header elements (a time correction of -1 µs with the nack flag set, and the
end of the header elements), an MLME element with a channel hopping element and a synchronization
element, and a payload. -/
def richFrame : Bytes :=
  [0x01, 0x22, 0x2a, 0x02, 0x0f, 0xff, 0x8f, 0x00, 0x3f, 0x0b, 0x88, 0x01, 0xc8, 0x07, 0x06, 0x1a,
    0x01, 0x00, 0x00, 0x00, 0x00, 0x05]

/-- What is in it. -/
def richRepr : FrameRepr where
  frameControl := ⟨.data, false, false, false, false, false, true, .absent, .absent, .v2020⟩
  sequenceNumber := some 0x2a
  addressingFields := some ⟨none, some .absent, none, some .absent⟩
  informationElements := some
    { header := [.timeCorrection ⟨.fromUs (-1), true⟩, .headerTermination1]
      payload := [.mlme [.channelHopping ⟨7⟩, .tschSynchronization ⟨1, 5⟩]] }
  payload := none

example : DataFrame.new richFrame = .ok richFrame ∧ FrameSays richFrame richRepr :=
  ⟨by decide +kernel, (C67_parse_iff richFrame (by decide +kernel) richRepr).mp (by decide +kernel)⟩

/-- **C67**, the full property: the representation has every information element of the frame. -/
def C67_statement : Prop :=
  ∀ (b : Bytes) (f : FrameRepr), DataFrame.new b = .ok b → FrameRepr.parse b = .ok f →
    ∀ ie r, DataFrame.informationElements b = .ok (some ie) → f.informationElements = some r →
    ∀ hs e ps e', InformationElements.headerDrain ie = .ok (hs, e) →
      InformationElements.payloadDrain ie = .ok (ps, e') →
      r.header.length = hs.length ∧ r.payload.length = ps.length ∧
      ∀ (k : Nat) (p : PayloadIe) (l : List NestedIeRepr), ps[k]? = some p →
        r.payload[k]? = some (.mlme l) → ∀ c ns e'', PayloadIe.content p = .ok c →
        drain nestedNext (c.length + 1) (nestedIter c) = .ok (ns, e'') → l.length = ns.length

/-- A frame of seventeen time corrections. -/
def longFrame : Bytes := [0x01, 0x23] ++ (List.replicate 17 [0x02, 0x0f, 0x00, 0x00]).flatten

/-- **C67** is false of the code: elements after the sixteenth are left out and `Ok` is
returned. -/
theorem C67_false : ¬ C67_statement := by
  intro h
  have h1 : DataFrame.new longFrame = .ok longFrame := by decide +kernel
  have h2 : FrameRepr.parse longFrame = .ok
      ⟨⟨.data, false, false, false, false, true, true, .absent, .absent, .v2020⟩, none,
        some ⟨none, some .absent, none, some .absent⟩,
        some ⟨List.replicate 16 (.timeCorrection ⟨.fromUs 0, false⟩), []⟩, none⟩ := by
    decide +kernel
  have h3 : DataFrame.informationElements longFrame = .ok (some (longFrame.drop 2)) := by
    decide +kernel
  obtain ⟨hs, e, h4, h5⟩ : ∃ hs e, InformationElements.headerDrain (longFrame.drop 2) = .ok (hs, e) ∧
      hs.length = 17 := ⟨_, _, rfl, rfl⟩
  obtain ⟨ps, e', h6⟩ : ∃ ps e', InformationElements.payloadDrain (longFrame.drop 2) = .ok (ps, e') :=
    ⟨_, _, rfl⟩
  have := (h _ _ h1 h2 _ _ h3 rfl hs e ps e' h4 h6).1
  rw [h5] at this
  simp at this

theorem FirstSay.length {α β : Type} {rel : α → β → Prop} {cap : Nat} {items : List α}
    {rs : List β} (h : FirstSay rel cap items rs) : rs.length = min cap items.length := by
  rw [← h.1.length_eq, List.length_take]

theorem FirstSay.all {α β : Type} {rel : α → β → Prop} {cap : Nat} {items : List α}
    {rs : List β} (h : FirstSay rel cap items rs) (hc : items.length ≤ cap) :
    List.Forall₂ rel items rs := by
  have := h.1
  rwa [List.take_of_length_le hc] at this

/-- **C67**, what holds (`_partial`: elements after the sixteenth of a list are excluded): of each
list of elements the representation has exactly the first sixteen, so all of them if there are no
more; none is invented or moved. -/
theorem C67_no_loss_partial (b : Bytes) (f : FrameRepr) (h : DataFrame.new b = .ok b)
    (hp : FrameRepr.parse b = .ok f) (ie : InformationElements) (r : InformationElementsRepr)
    (hie : DataFrame.informationElements b = .ok (some ie)) (hr : f.informationElements = some r)
    (hs : List HeaderIe) (e : IeIter) (ps : List PayloadIe) (e' : IeIter)
    (h1 : InformationElements.headerDrain ie = .ok (hs, e))
    (h2 : InformationElements.payloadDrain ie = .ok (ps, e')) :
    r.header.length = min 16 hs.length ∧ r.payload.length = min 16 ps.length ∧
    (∀ (k : Nat) (i : HeaderIe) (x : HeaderIeRepr), hs[k]? = some i → r.header[k]? = some x →
      HeaderSays i x) ∧
    ∀ (k : Nat) (p : PayloadIe) (x : PayloadIeRepr), ps[k]? = some p → r.payload[k]? = some x →
      ∃ l c ns e'', x = .mlme l ∧ PayloadIe.groupId p = .ok .mlme ∧ PayloadIe.content p = .ok c ∧
        drain nestedNext (c.length + 1) (nestedIter c) = .ok (ns, e'') ∧
        l.length = min 16 ns.length ∧
        ∀ (j : Nat) (i : NestedIe) (y : NestedIeRepr), ns[j]? = some i → l[j]? = some y →
          NestedSays i y := by
  obtain ⟨-, -, -, ⟨ie', g1, g2⟩, -⟩ := (C67_parse_iff b h f).mp hp
  rw [hie] at g1; cases g1
  rw [hr] at g2
  obtain ⟨hs', e1, ps', e2, k1, k2, k3, k4⟩ := g2
  rw [h1] at k1; cases k1
  rw [h2] at k2; cases k2
  have get : ∀ {α β : Type} {rel : α → β → Prop} {items : List α} {rs : List β},
      FirstSay rel 16 items rs → ∀ (k : Nat) (a : α) (x : β), items[k]? = some a → rs[k]? = some x →
      rel a x := by
    intro α β rel items rs hf k a x ha hx
    have hk : k < rs.length := (List.getElem?_eq_some_iff.mp hx).1
    rw [hf.length] at hk
    have h16 : (items.take 16)[k]? = some a := by
      rw [List.getElem?_take, if_pos (by omega), ha]
    obtain ⟨hl, hg⟩ := List.forall₂_iff_get.mp hf.1
    obtain ⟨q1, q2⟩ := List.getElem?_eq_some_iff.mp h16
    obtain ⟨q3, q4⟩ := List.getElem?_eq_some_iff.mp hx
    have := hg k q1 q3
    simp only [List.get_eq_getElem] at this
    rwa [q2, q4] at this
  refine ⟨k3.length, k4.length, get k3, ?_⟩
  intro k p x hk hx
  have := get k4 k p x hk hx
  cases x with
  | payloadTermination => cases this
  | mlme l =>
    obtain ⟨m1, c, ns, e'', m2, m3, m4⟩ := this
    exact ⟨l, c, ns, e'', rfl, m1, m2, m3, m4.length, get m4⟩

/-- **C67**, the other capacities: slotframe elements with more than three slotframes, or with a
slotframe of more than four links, are not cut short but reported as an error. -/
theorem C67_too_many (i : NestedIe) (c : Bytes) (ds : List SlotframeDescriptor) (e : SlotframeIter)
    (hid : NestedIe.subId i = .ok (.short .tschSlotframeAndLink)) (hc : NestedIe.content i = .ok c)
    (hd : TschSlotframeAndLink.descriptors c = .ok (ds, e))
    (h0 : ∀ t ∈ ds, SlotframeDescriptor.links t ≠ .ok 0)
    (h : 3 < ds.length ∨ ∃ t ∈ ds, ∃ n, SlotframeDescriptor.links t = .ok n ∧ 4 < n.toNat) :
    NestedIeRepr.parse i = .err := by
  have hret : Returns (NestedIeRepr.parse i) := by
    refine parse_nested_returns i (by rw [hid]; simp) c hc ?_
    rintro (⟨h1, -⟩ | ⟨-, d', ds', e', h1, h2, t, h3, h4⟩)
    · rw [hid] at h1; simp at h1
    · rw [hc] at h1; cases h1
      rw [hd] at h2; cases h2
      exact h0 t h3 h4
  cases hp : NestedIeRepr.parse i with
  | err => rfl
  | panic => exact absurd hp hret
  | ok r =>
    exfalso
    have hs := (nested_parse_iff i r).mp hp
    cases r with
    | tschSlotframeAndLink r =>
      obtain ⟨-, c', ds', e', h1, -, h2, h3, h4⟩ := hs
      rw [hc] at h1; cases h1
      rw [hd] at h2; cases h2
      rcases h with h | ⟨t, ht, n, hn, h5⟩
      · have := h4.length_eq; omega
      · obtain ⟨k, hk, rfl⟩ := List.getElem_of_mem ht
        obtain ⟨hl, hg⟩ := List.forall₂_iff_get.mp h4
        obtain ⟨⟨-, -, g, -⟩, -, g2⟩ := hg k hk (by omega)
        simp only [List.get_eq_getElem] at g g2
        rw [hn] at g
        simp only [ofSlotframeRepr, List.length_map, ok.injEq] at g
        have := congrArg BitVec.toNat g
        simp at this
        omega
    | _ => simp [NestedSays, hid] at hs

/-- A slotframe with five links. -/
def fiveLinks : Bytes := [0x01, 0x65, 0x00, 0x05] ++
  (List.replicate 5 [0x01, 0x00, 0x02, 0x00, 0x0f]).flatten

example : NestedIeRepr.parse ([0x1e, 0x1b, 0x01] ++ fiveLinks) = .err :=
  C67_too_many _ ([0x01] ++ fiveLinks) [fiveLinks] _ rfl rfl rfl (by decide +kernel)
    (.inr ⟨fiveLinks, by simp, 5, rfl, by decide⟩)

end Dot15d4.Props
