import Verif.Lemmas.ReprElements
import Verif.Props.Frames
import Verif.Props.IeList
import Verif.Props.Tsch

/-! # C31: parsing whole frames does not panic -/

namespace Dot15d4.Props
open Out Spec

/-! ## Loops -/

theorem returns_bind {α β : Type} {x : Out α} {f : α → Out β} (hx : Returns x)
    (hf : ∀ a, x = .ok a → Returns (f a)) : Returns (x >>= f) := by
  cases x with
  | ok a => exact hf a rfl
  | err => simp
  | panic => exact absurd hx (by simp)

theorem loopList_returns {α β : Type} (body : α → β → Out (Bool × β)) : ∀ (l : List α),
    (∀ a ∈ l, ∀ acc, Returns (body a acc)) → ∀ acc, Returns (loopList body l acc)
  | [], _, acc => by simp [loopList]
  | a :: l, h, acc => by
    rw [loopList]
    refine returns_bind (h a (by simp) acc) fun t _ => ?_
    split
    · simp
    · exact loopList_returns body l (fun x hx => h x (by simp [hx])) _

theorem pushOrBreak_returns {α β : Type} (cap : Nat) (parse : α → Out β) (a : α)
    (h : Returns (parse a)) (acc : List β) : Returns (pushOrBreak cap parse a acc) :=
  returns_bind h fun _ _ => by split <;> simp

theorem pushOrErr_returns {α β : Type} (cap : Nat) (parse : α → Out β) (a : α)
    (h : Returns (parse a)) (acc : List β) : Returns (pushOrErr cap parse a acc) :=
  returns_bind h fun _ _ => by split <;> simp

/-! ## Single elements -/

/-- A header element with readable id and content is parsed without panic. -/
theorem parse_header_returns (i : HeaderIe) (h1 : Returns (HeaderIe.elementId i))
    (h2 : Returns (HeaderIe.content i)) : Returns (HeaderIeRepr.parse i) := by
  rw [HeaderIeRepr.parse]
  refine returns_bind h1 fun id _ => ?_
  cases id <;> try (simp; done)
  refine returns_bind h2 fun c _ => ?_
  by_cases hc : 2 ≤ c.length
  · obtain ⟨e, t, n, g1, g2, -⟩ := C20_reader_range c hc
    simp [e, TimeCorrectionRepr.parse, g1, g2]
  · simp [C20_short c (Nat.lt_of_not_le hc)]

/-- A nested element the parser cannot handle: a TSCH timeslot element of 26 octets with an id
other than 0 (`new` accepts it, the third octet of the timeslot length is missing), or a TSCH
slotframe element with a slotframe that has no links. -/
def Hazardous (c : NestedIe) : Prop :=
  (NestedIe.subId c = .ok (.short .tschTimeslot) ∧
    ∃ d, NestedIe.content c = .ok d ∧ d.length = 26 ∧ d.head? ≠ some 0) ∨
  (NestedIe.subId c = .ok (.short .tschSlotframeAndLink) ∧
    ∃ d ds e, NestedIe.content c = .ok d ∧ TschSlotframeAndLink.descriptors d = .ok (ds, e) ∧
      ∃ t ∈ ds, SlotframeDescriptor.links t = .ok 0)

theorem parse_timeslot_panics_iff (d : Bytes) (h : TschTimeslot.new d = .ok d) :
    TschTimeslotRepr.parse d = .panic ↔ d.length = 26 ∧ d.head? ≠ some 0 := by
  rw [← C22_read_panics_iff d h, TschTimeslotRepr.parse]
  by_cases hl : TschTimeslot.hasTimeslotTimings d = true
  · rw [if_pos hl]
    cases TschTimeslot.timeslotTimings d <;> simp
  · rw [if_neg hl, C22_read_panics_iff d h]
    simp only [TschTimeslot.hasTimeslotTimings, decide_eq_true_eq] at hl
    cases d with
    | nil => simp [TschTimeslot.new] at h
    | cons x d =>
      rw [List.length_cons] at hl
      simp only [TschTimeslot.id, idx_zero, bind_ok, reduceCtorEq, false_iff, not_and]
      intro e
      rw [List.length_cons] at e
      omega

theorem parse_slotframe_returns (t : SlotframeDescriptor) (hd sz n it)
    (h1 : SlotframeDescriptor.handle t = .ok hd) (h2 : SlotframeDescriptor.size t = .ok sz)
    (h4 : SlotframeDescriptor.linkIter t = .ok it)
    (h5 : ∃ ls it'', drain linkNext (it.data.length + 2) it = .ok (ls, it'') ∧
          linkNext it'' = .ok (none, it'') ∧ ls.length = n ∧
          ∀ k ∈ ls, ∃ ts co op, LinkInformation.timeslot k = .ok ts ∧
            LinkInformation.channelOffset k = .ok co ∧ LinkInformation.linkOptions k = .ok op) :
    Returns (SlotframeDescriptorRepr.parse t) := by
  obtain ⟨ls, it'', g1, -, -, g2⟩ := h5
  rw [SlotframeDescriptorRepr.parse, h4]
  simp only [bind_ok]
  rw [forLoop_drain _ _ _ _ _ _ _ g1]
  refine returns_bind (loopList_returns _ ls (fun k hk acc => pushOrErr_returns _ _ _ ?_ _) _) ?_
  · obtain ⟨ts, co, op, k1, k2, k3⟩ := g2 k hk
    simp [LinkInformationRepr.parse, k1, k2, k3]
  · intro l _
    simp [h1, h2]

/-- Nested elements are parsed without panic unless hazardous. -/
theorem parse_nested_returns (i : NestedIe) (h1 : Returns (NestedIe.subId i)) (c : Bytes)
    (h2 : NestedIe.content i = .ok c) (h : ¬ Hazardous i) : Returns (NestedIeRepr.parse i) := by
  rw [NestedIeRepr.parse]
  refine returns_bind h1 fun id hid => ?_
  split
  · rw [h2]
    simp only [bind_ok]
    by_cases h6 : 6 ≤ c.length
    · match c, h6 with
      | b0 :: b1 :: b2 :: b3 :: b4 :: b5 :: l, _ =>
        obtain ⟨e1, e2, a, e3, -⟩ := C21_read b0 b1 b2 b3 b4 b5 l
        simp [e1, TschSynchronizationRepr.parse, e2, e3]
    · simp [TschSynchronization.new, h6]
  · rw [h2]
    simp only [bind_ok]
    have hnew : TschTimeslot.new c = .ok c ∨ TschTimeslot.new c = .err := by
      cases c with
      | nil => simp [TschTimeslot.new]
      | cons x c =>
        simp only [TschTimeslot.new, TschTimeslot.id]
        simp only [List.length_cons, idx_zero, bind_ok]
        split
        · simp
        · split
          · simp
          · split <;> simp
    rcases hnew with hn | hn
    · rw [hn]
      simp only [bind_ok]
      refine returns_bind ?_ fun _ _ => by simp
      intro hp
      exact h (.inl ⟨hid, c, h2, (parse_timeslot_panics_iff c hn).mp hp⟩)
    · simp [hn]
  · rw [h2]
    simp only [bind_ok]
    by_cases hc : c = []
    · simp [hc, TschSlotframeAndLink.new]
    · obtain ⟨e, ds, it, g1, -, g2⟩ := C23_reads_safe c hc
      rw [e]
      simp only [bind_ok]
      refine returns_bind ?_ fun _ _ => by simp
      rw [TschSlotframeAndLinkRepr.parse]
      have g1' := g1
      rw [TschSlotframeAndLink.descriptors] at g1'
      obtain ⟨it0, k1, k2⟩ := bind_eq_ok.mp g1'
      rw [k1]
      simp only [bind_ok]
      rw [forLoop_drain _ _ _ _ _ _ _ k2]
      refine returns_bind (loopList_returns _ ds (fun t ht acc => pushOrErr_returns _ _ _ ?_ _) _)
        fun _ _ => by simp
      obtain ⟨hd, sz, n, it', m1, m2, m3, m4, m5⟩ := g2 t ht
      have hn : n ≠ 0 := by
        rintro rfl
        exact h (.inr ⟨hid, c, ds, it, h2, g1, t, ht, m3⟩)
      exact parse_slotframe_returns t hd sz n.toNat it' m1 m2 m4 (m5 hn)
  · rw [h2]
    simp only [bind_ok]
    cases c with
    | nil => simp [ChannelHopping.new]
    | cons x c => simp [ChannelHopping.new, ChannelHoppingRepr.parse, ChannelHopping.hoppingSequenceId]
  · simp

/-- The nested elements of a frame: those iterated inside the MLME elements among its payload
elements. -/
def NestedIn (b : DataFrame) (c : NestedIe) : Prop :=
  ∃ ie ps e p q cs e', DataFrame.informationElements b = .ok (some ie) ∧
    InformationElements.payloadDrain ie = .ok (ps, e) ∧ p ∈ ps ∧
    PayloadIe.groupId p = .ok .mlme ∧ PayloadIe.content p = .ok q ∧
    drain nestedNext (q.length + 1) (nestedIter q) = .ok (cs, e') ∧ c ∈ cs

/-- The full claim of C31. -/
def C31_statement : Prop := ∀ b f, DataFrame.new b = .ok f → Returns (FrameRepr.parse f)

/-- **C31**.  Whatever octets a data frame consists of, `FrameRepr::parse` gives a frame or an
error.  Missing: frames with a hazardous nested element (`C31_false_…`). -/
theorem C31_parse_returns_partial (b f : Bytes) (h : DataFrame.new b = .ok f)
    (hz : ∀ c, NestedIn f c → ¬ Hazardous c) : Returns (FrameRepr.parse f) := by
  obtain ⟨r1, r2, r3, -, r5, r6, r7, r8⟩ := C10_accessors b f h
  simp only [dataApi] at r1 r2 r3 r5 r6 r7 r8
  obtain ⟨rfl, o0, o1, seq, A, I, R, af, ie, -, e1, -⟩ := C11_split b f h
  simp only [dataApi] at e1
  rw [FrameRepr.parse]
  refine returns_bind r1 fun fc hfc => ?_
  rw [e1] at hfc; cases hfc
  rw [FrameControlRepr.parse_cons]
  simp only [bind_ok]
  refine returns_bind r3 fun af haf => ?_
  refine returns_bind ?_ fun _ _ => ?_
  · cases af with
    | none => simp [mapOpt]
    | some af =>
      obtain ⟨g1, g2, g3, g4, -⟩ := r7 af haf
      refine returns_bind ?_ fun _ _ => by simp
      rw [AddressingFieldsRepr.parse]
      refine returns_bind g1 fun _ _ => returns_bind g2 fun _ _ => returns_bind g3 fun _ _ =>
        returns_bind g4 fun _ _ => by simp
  refine returns_bind r5 fun ie hie => ?_
  refine returns_bind ?_ fun _ _ => returns_bind r2 fun _ _ => returns_bind r6 fun _ _ => by simp
  cases ie with
  | none => simp [mapOpt]
  | some ie =>
    obtain ⟨-, ⟨hi, he, d1, d2⟩, ⟨pi, pe, d3, d4⟩⟩ := r8 ie hie
    refine returns_bind ?_ fun _ _ => by simp
    rw [InformationElementsRepr.parse]
    have d1' := d1
    rw [InformationElements.headerDrain] at d1'
    rw [forLoop_drain _ _ _ _ _ _ _ d1']
    have d3' := d3
    rw [InformationElements.payloadDrain] at d3'
    obtain ⟨it, k1, k2⟩ := bind_eq_ok.mp d3'
    refine returns_bind (loopList_returns _ _ (fun i hx acc => pushOrBreak_returns _ _ _ ?_ _) _)
      fun _ _ => ?_
    · obtain ⟨i1, -, i3⟩ := d2 i hx
      exact parse_header_returns i i1 i3
    rw [k1]
    simp only [bind_ok]
    rw [forLoop_drain _ _ _ _ _ _ _ k2]
    refine returns_bind (loopList_returns _ _ (fun i hx acc => pushOrBreak_returns _ _ _ ?_ _) _)
      fun _ _ => by simp
    obtain ⟨i1, -, i3⟩ := d4 i hx
    rw [PayloadIeRepr.parse]
    refine returns_bind i1 fun g hg => ?_
    split
    · cases hc : PayloadIe.content i with
      | panic => rw [hc] at i3; simp at i3
      | err => simp [PayloadIe.nestedIter, hg, hc]
      | ok q =>
        rw [C19_nested_only_mlme i .mlme q hg hc]
        simp only [if_true, bind_ok]
        obtain ⟨cs, e, rest, m1, -, -, -, m2⟩ := C19_nested_iteration q
        have hdat : (nestedIter q).data = q := rfl
        rw [hdat, forLoop_drain _ _ _ _ _ _ _ m1]
        refine returns_bind (loopList_returns _ _ (fun c hx' acc =>
          pushOrBreak_returns _ _ _ ?_ _) _) fun _ _ => by simp
        obtain ⟨-, n1, -, n2⟩ := m2 c hx'
        exact parse_nested_returns c n2 _ n1
          (hz c ⟨ie, pi, pe, i, q, cs, e, hie, d3, hx, hg, hc, m1, hx'⟩)
    · simp

/-- A frame with a timeslot element of 26 octets. -/
def timeslotFrame : Bytes :=
  [0x01, 0x22, 0x07, 0x00, 0x3f, 0x1c, 0x88, 0x1a, 0x1c, 0x01] ++ List.replicate 25 0

/-- A frame with a slotframe without links. -/
def slotframeFrame : Bytes :=
  [0x01, 0x22, 0x07, 0x00, 0x3f, 0x07, 0x88, 0x05, 0x1b, 0x01, 0x01, 0x65, 0x00, 0x00]

/-- A frame with a slotframe with one link, and a channel hopping element. -/
def safeFrame : Bytes :=
  [0x01, 0x22, 0x07, 0x00, 0x3f, 0x0f, 0x88, 0x0a, 0x1b, 0x01, 0x01, 0x65, 0x00, 0x01, 0x01, 0x00,
    0x02, 0x00, 0x0f, 0x01, 0xc8, 0x00]

/-- C31 in full is false, (1): a frame of 35 octets makes the parser panic. -/
theorem C31_false_timeslot : ¬ C31_statement := by
  intro h
  exact h timeslotFrame timeslotFrame (by decide +kernel) (by decide +kernel)

/-- C31 in full is false, (2): so does one of 14 octets. -/
theorem C31_false_slotframe : ¬ C31_statement := by
  intro h
  exact h slotframeFrame slotframeFrame (by decide +kernel) (by decide +kernel)

/-- The condition of `C31_parse_returns_partial` is exact for timeslot elements: parsing an accepted
one panics exactly if it is hazardous. -/
theorem C31_timeslot_hazard_exact (d : Bytes) (h : TschTimeslot.new d = .ok d) :
    TschTimeslotRepr.parse d = .panic ↔ d.length = 26 ∧ d.head? ≠ some 0 :=
  parse_timeslot_panics_iff d h

/-- And for slotframes: a descriptor without links cannot be parsed. -/
theorem C31_slotframe_hazard_panics (t : SlotframeDescriptor) (h4 : 4 ≤ List.length t)
    (h0 : SlotframeDescriptor.links t = .ok 0) : SlotframeDescriptorRepr.parse t = .panic := by
  obtain ⟨it, h1, h2, h3, -⟩ := C23_no_links_panic t h4 h0
  rw [SlotframeDescriptorRepr.parse, h1]
  simp only [bind_ok]
  rw [forLoop_drain _ _ _ _ _ _ _ h2]
  simp [loopList, pushOrErr, LinkInformationRepr.parse, h3]

/-- The hypotheses are met by a frame with slotframes and links; what is parsed. -/
example : DataFrame.new safeFrame = .ok safeFrame ∧
    (∀ c, NestedIn safeFrame c → ¬ Hazardous c) := by
  refine ⟨by decide +kernel, ?_⟩
  rintro c ⟨ie, ps, e, p, q, cs, e', h1, h2, h3, h4, h5, h6, h7⟩
  have g1 : DataFrame.informationElements safeFrame = .ok (some (safeFrame.drop 3)) := by
    decide +kernel
  rw [g1] at h1; cases h1
  have g2 : InformationElements.payloadDrain (safeFrame.drop 3) =
      .ok ([safeFrame.drop 5], ⟨safeFrame.drop 5, 17, true⟩) := by decide +kernel
  rw [g2] at h2; cases h2
  simp only [List.mem_singleton] at h3; subst h3
  have g5 : PayloadIe.content (safeFrame.drop 5) = .ok (safeFrame.drop 7) := by decide +kernel
  rw [g5] at h5; cases h5
  have g6 : drain nestedNext ((safeFrame.drop 7).length + 1) (nestedIter (safeFrame.drop 7)) =
      .ok ([[0x0a, 0x1b, 0x01, 0x01, 0x65, 0x00, 0x01, 0x01, 0x00, 0x02, 0x00, 0x0f],
        [0x01, 0xc8, 0x00]], ⟨safeFrame.drop 7, 15, true⟩) := by decide +kernel
  rw [g6] at h6; cases h6
  simp only [List.mem_cons, List.not_mem_nil, or_false] at h7
  rcases h7 with rfl | rfl
  · rintro (⟨h, -⟩ | ⟨-, d, ds, e, k1, k2, t, k3, k4⟩)
    · revert h; decide +kernel
    · have m1 : NestedIe.content [0x0a, 0x1b, 0x01, 0x01, 0x65, 0x00, 0x01, 0x01, 0x00, 0x02, 0x00,
        0x0f] = .ok [0x01, 0x01, 0x65, 0x00, 0x01, 0x01, 0x00, 0x02, 0x00, 0x0f] := by
        decide +kernel
      rw [m1] at k1; cases k1
      have m2 : TschSlotframeAndLink.descriptors
          [0x01, 0x01, 0x65, 0x00, 0x01, 0x01, 0x00, 0x02, 0x00, 0x0f] =
          .ok ([[0x01, 0x65, 0x00, 0x01, 0x01, 0x00, 0x02, 0x00, 0x0f]],
            ⟨[0x01, 0x65, 0x00, 0x01, 0x01, 0x00, 0x02, 0x00, 0x0f], 9, true, 1, 1⟩) := by
        decide +kernel
      rw [m2] at k2; cases k2
      simp only [List.mem_singleton] at k3; subst k3
      revert k4; decide +kernel
  · rintro (⟨h, -⟩ | ⟨h, -⟩) <;> (revert h; decide +kernel)

end Dot15d4.Props
