import Verif.Props.Parse

/-!
# C31: exactly when parsing a frame panics

`C31_parse_returns_partial` says that frames without hazardous nested elements are parsed or
refused.  Here is the exact condition, with nothing left open: `FrameRepr::parse` panics exactly if
everything it reads before some hazardous element is readable and the loops get that far.
-/

namespace Dot15d4.Props
open Out Spec

/-! ## The specification -/

/-- Reading `items` one by one, at most `cap + 1` of them, one meets a bad entry and all entries
before it are fine. -/
def Reaches {α : Type} (fine bad : α → Prop) (cap : Nat) (items : List α) : Prop :=
  ∃ before a after, items = before ++ a :: after ∧ before.length ≤ cap ∧
    (∀ x ∈ before, fine x) ∧ bad a

/-- A slotframe the parser can represent: 1 to 4 links. -/
def SlotframeFine (d : SlotframeDescriptor) : Prop :=
  ∃ s : SlotframeDescriptorRepr, SlotframeReads d (ofSlotframeRepr s) ∧ 0 < s.links.length ∧
    s.links.length ≤ 4

/-- A nested element on which the parser panics: an accepted timeslot element of 26 octets whose
first is not 0, or a slotframe element in which a slotframe without links is among the first four
and follows slotframes of 1 to 4 links. -/
def NestedBad (i : NestedIe) : Prop :=
  (NestedIe.subId i = .ok (.short .tschTimeslot) ∧
    ∃ c, NestedIe.content i = .ok c ∧ c.length = 26 ∧ c.head? ≠ some 0) ∨
  (NestedIe.subId i = .ok (.short .tschSlotframeAndLink) ∧
    ∃ c ds e, NestedIe.content i = .ok c ∧ TschSlotframeAndLink.descriptors c = .ok (ds, e) ∧
      Reaches SlotframeFine (fun d => SlotframeDescriptor.links d = .ok 0) 3 ds)

/-- A payload element on which the parser panics: an MLME element in which such a nested element is
among the first 17 and follows readable ones. -/
def PayloadBad (i : PayloadIe) : Prop :=
  PayloadIe.groupId i = .ok .mlme ∧
    ∃ c ns e, PayloadIe.content i = .ok c ∧
      drain nestedNext (c.length + 1) (nestedIter c) = .ok (ns, e) ∧
      Reaches (fun n => ∃ r, NestedSays n r) NestedBad 16 ns

/-- A frame on which the parser panics: its header elements (the first 17) are readable and such a
payload element is among the first 17 and follows readable ones. -/
def FrameBad (b : Bytes) : Prop :=
  ∃ ie hs e ps e', DataFrame.informationElements b = .ok (some ie) ∧
    InformationElements.headerDrain ie = .ok (hs, e) ∧
    InformationElements.payloadDrain ie = .ok (ps, e') ∧
    (∀ h ∈ hs.take 17, ∃ r, HeaderSays h r) ∧
    Reaches (fun p => ∃ r, PayloadSays p r) PayloadBad 16 ps

/-! ## Loops -/

theorem reaches_nil {α : Type} (fine bad : α → Prop) (cap : Nat) : ¬ Reaches fine bad cap [] := by
  rintro ⟨l, a, r, h, -⟩
  cases l <;> cases h

theorem reaches_cons {α : Type} (fine bad : α → Prop) (cap : Nat) (a : α) (l : List α) :
    Reaches fine bad cap (a :: l) ↔ bad a ∨ (fine a ∧ 0 < cap ∧ Reaches fine bad (cap - 1) l) := by
  constructor
  · rintro ⟨before, x, after, h, h1, h2, h3⟩
    cases before with
    | nil =>
      rw [List.nil_append] at h
      cases h
      exact .inl h3
    | cons y before =>
      rw [List.cons_append] at h
      cases h
      rw [List.length_cons] at h1
      exact .inr ⟨h2 a (by simp), by omega, before, x, after, rfl, by omega,
        fun z hz => h2 z (by simp [hz]), h3⟩
  · rintro (h | ⟨h, hc, before, x, after, rfl, h1, h2, h3⟩)
    · exact ⟨[], a, l, rfl, by simp, by simp, h⟩
    · refine ⟨a :: before, x, after, rfl, by rw [List.length_cons]; omega, ?_, h3⟩
      intro z hz
      rcases List.mem_cons.mp hz with rfl | hz
      · exact h
      · exact h2 z hz

theorem reaches_congr {α : Type} {fine fine' bad bad' : α → Prop} {cap : Nat} {l : List α}
    (h1 : ∀ a ∈ l, (fine a ↔ fine' a)) (h2 : ∀ a ∈ l, (bad a ↔ bad' a)) :
    Reaches fine bad cap l ↔ Reaches fine' bad' cap l := by
  constructor
  · rintro ⟨b, a, r, rfl, g1, g2, g3⟩
    exact ⟨b, a, r, rfl, g1, fun x hx => (h1 x (by simp [hx])).mp (g2 x hx), (h2 a (by simp)).mp g3⟩
  · rintro ⟨b, a, r, rfl, g1, g2, g3⟩
    exact ⟨b, a, r, rfl, g1, fun x hx => (h1 x (by simp [hx])).mpr (g2 x hx),
      (h2 a (by simp)).mpr g3⟩

/-- A loop that breaks when the vector is full panics exactly if it reaches an entry that does. -/
theorem loop_break_panic {α β : Type} (cap : Nat) (parse : α → Out β) :
    ∀ (items : List α) (acc : List β), acc.length ≤ cap →
    (loopList (pushOrBreak cap parse) items acc = .panic ↔
      Reaches (fun a => ∃ b, parse a = .ok b) (fun a => parse a = .panic) (cap - acc.length) items)
  | [], acc, _ => by simp [loopList, reaches_nil]
  | a :: items, acc, hc => by
    rw [reaches_cons]
    simp only [loopList, pushOrBreak]
    cases hp : parse a with
    | err => simp
    | panic => simp
    | ok b =>
      by_cases hlt : acc.length < cap
      · simp only [bind_ok, hlt, if_true, Bool.false_eq_true, if_false]
        rw [loop_break_panic cap parse items (acc ++ [b]) (by simp; omega)]
        have e : cap - (acc ++ [b]).length = cap - acc.length - 1 := by simp; omega
        rw [e]
        simp [hlt]
      · simp only [bind_ok, hlt, if_false, if_true]
        simp
        omega

/-- So does a loop that fails when the vector is full. -/
theorem loop_err_panic {α β : Type} (cap : Nat) (parse : α → Out β) :
    ∀ (items : List α) (acc : List β), acc.length ≤ cap →
    (loopList (pushOrErr cap parse) items acc = .panic ↔
      Reaches (fun a => ∃ b, parse a = .ok b) (fun a => parse a = .panic) (cap - acc.length) items)
  | [], acc, _ => by simp [loopList, reaches_nil]
  | a :: items, acc, hc => by
    rw [reaches_cons]
    simp only [loopList, pushOrErr]
    cases hp : parse a with
    | err => simp
    | panic => simp
    | ok b =>
      by_cases hlt : acc.length < cap
      · simp only [bind_ok, hlt, if_true, Bool.false_eq_true, if_false]
        rw [loop_err_panic cap parse items (acc ++ [b]) (by simp; omega)]
        have e : cap - (acc ++ [b]).length = cap - acc.length - 1 := by simp; omega
        rw [e]
        simp [hlt]
      · simp only [bind_ok, hlt, if_false]
        simp
        omega

/-- A loop over entries that do not panic gives something exactly if the entries it looks at are
readable. -/
theorem loop_break_ok {α β : Type} (cap : Nat) (parse : α → Out β) :
    ∀ (items : List α) (acc : List β), acc.length ≤ cap →
    ((∃ l, loopList (pushOrBreak cap parse) items acc = .ok l) ↔
      ∀ a ∈ items.take (cap + 1 - acc.length), ∃ b, parse a = .ok b)
  | [], acc, _ => by simp [loopList]
  | a :: items, acc, hc => by
    have e : cap + 1 - acc.length = (cap - acc.length) + 1 := by omega
    rw [e, List.take_succ_cons]
    simp only [loopList, pushOrBreak]
    cases hp : parse a with
    | err => simp [hp]
    | panic => simp [hp]
    | ok b =>
      by_cases hlt : acc.length < cap
      · simp only [bind_ok, hlt, if_true, Bool.false_eq_true, if_false]
        rw [loop_break_ok cap parse items (acc ++ [b]) (by simp; omega)]
        have e : cap + 1 - (acc ++ [b]).length = cap - acc.length := by simp
        rw [e]
        simp [hp]
      · have e : cap - acc.length = 0 := by omega
        simp only [bind_ok, hlt, if_false, if_true, e]
        simp [hp]

theorem bind_ok_panic {α β : Type} {x : Out α} {f : α → β} :
    (x >>= fun a => Out.ok (f a)) = .panic ↔ x = .panic := by
  cases x <;> simp

/-! ## Single elements -/

/-- A slotframe makes the parser panic exactly if it has no links. -/
theorem slotframe_panics_iff (t : SlotframeDescriptor) (hd sz n it)
    (h1 : SlotframeDescriptor.handle t = .ok hd) (h2 : SlotframeDescriptor.size t = .ok sz)
    (h3 : SlotframeDescriptor.links t = .ok n)
    (h4 : SlotframeDescriptor.linkIter t = .ok it)
    (h5 : n ≠ 0 → ∃ ls it'', drain linkNext (it.data.length + 2) it = .ok (ls, it'') ∧
          linkNext it'' = .ok (none, it'') ∧ ls.length = n.toNat ∧
          ∀ k ∈ ls, ∃ ts co op, LinkInformation.timeslot k = .ok ts ∧
            LinkInformation.channelOffset k = .ok co ∧ LinkInformation.linkOptions k = .ok op) :
    SlotframeDescriptorRepr.parse t = .panic ↔ SlotframeDescriptor.links t = .ok 0 := by
  have hl : 4 ≤ List.length t := by
    by_contra hlt
    rw [SlotframeDescriptor.links, idx_ge (by omega)] at h3
    cases h3
  constructor
  · intro hp
    by_contra hne
    have hn : n ≠ 0 := by rintro rfl; exact hne h3
    exact parse_slotframe_returns t hd sz n.toNat it h1 h2 h4 (h5 hn) hp
  · exact C31_slotframe_hazard_panics t hl

/-- A slotframe element makes the parser panic exactly if it reaches a slotframe without links. -/
theorem slotframes_panics_iff (c : Bytes) (hc : c ≠ []) :
    TschSlotframeAndLinkRepr.parse c = .panic ↔
      ∃ ds e, TschSlotframeAndLink.descriptors c = .ok (ds, e) ∧
        Reaches SlotframeFine (fun d => SlotframeDescriptor.links d = .ok 0) 3 ds := by
  obtain ⟨e, ds, it, g1, -, g2⟩ := C23_reads_safe c hc
  have g1' := g1
  rw [TschSlotframeAndLink.descriptors] at g1'
  obtain ⟨it0, k1, k2⟩ := bind_eq_ok.mp g1'
  rw [TschSlotframeAndLinkRepr.parse, k1]
  simp only [bind_ok]
  rw [forLoop_drain _ _ _ _ _ _ _ k2, bind_ok_panic, loop_err_panic 3 _ ds [] (by simp)]
  have hok : ∀ t ∈ ds, (∃ s, SlotframeDescriptorRepr.parse t = .ok s) ↔ SlotframeFine t := by
    intro t ht
    obtain ⟨hd, sz, n, it', m1, m2, m3, m4, m5⟩ := g2 t ht
    refine exists_congr fun s => slotframe_parse_iff t hd sz n it' m1 m2 m3 m4 (fun hn => ?_) s
    obtain ⟨ls, it'', q1, q2, q3, -⟩ := m5 hn
    exact ⟨ls, it'', q1, q2, q3⟩
  have hbad : ∀ t ∈ ds, SlotframeDescriptorRepr.parse t = .panic ↔
      SlotframeDescriptor.links t = .ok 0 := by
    intro t ht
    obtain ⟨hd, sz, n, it', m1, m2, m3, m4, m5⟩ := g2 t ht
    exact slotframe_panics_iff t hd sz n it' m1 m2 m3 m4 m5
  rw [List.length_nil, Nat.sub_zero, reaches_congr hok hbad]
  constructor
  · intro h; exact ⟨ds, it, g1, h⟩
  · rintro ⟨ds', e', h1, h2⟩
    rw [g1] at h1; cases h1
    exact h2

/-- A nested element makes the parser panic exactly if it is bad. -/
theorem nested_panics_iff (i : NestedIe) (h1 : Returns (NestedIe.subId i)) (c : Bytes)
    (h2 : NestedIe.content i = .ok c) : NestedIeRepr.parse i = .panic ↔ NestedBad i := by
  by_cases hT : NestedIe.subId i = .ok (.short .tschTimeslot)
  · rw [NestedIeRepr.parse, hT]
    simp only [bind_ok, h2]
    have hnew : TschTimeslot.new c = .ok c ∨ TschTimeslot.new c = .err := by
      cases c with
      | nil => simp [TschTimeslot.new]
      | cons x c =>
        simp only [TschTimeslot.new, TschTimeslot.id]
        simp only [List.length_cons, idx_zero, bind_ok]
        split
        · simp
        · split
          · simp
          · split <;> simp
    have h26 : c.length = 26 → c.head? ≠ some 0 → TschTimeslot.new c = .ok c := by
      intro hl hh
      cases c with
      | nil => simp at hl
      | cons x c =>
        have hx : x ≠ 0 := by rintro rfl; simp at hh
        simp only [TschTimeslot.new, TschTimeslot.id, idx_zero, bind_ok]
        simp [hl]
    have hrhs : NestedBad i ↔ c.length = 26 ∧ c.head? ≠ some 0 := by
      constructor
      · rintro (⟨-, c', h, h'⟩ | ⟨h, -⟩)
        · rw [h2] at h; cases h; exact h'
        · rw [hT] at h; cases h
      · intro h; exact .inl ⟨hT, c, h2, h⟩
    rw [hrhs]
    rcases hnew with hn | hn
    · simp only [hn, bind_ok, bind_ok_panic]
      exact parse_timeslot_panics_iff c hn
    · simp only [hn, bind_err, reduceCtorEq, false_iff]
      rintro ⟨hl, hh⟩
      rw [h26 hl hh] at hn; cases hn
  · by_cases hS : NestedIe.subId i = .ok (.short .tschSlotframeAndLink)
    · rw [NestedIeRepr.parse, hS]
      simp only [bind_ok, h2]
      have hrhs : NestedBad i ↔ ∃ ds e, TschSlotframeAndLink.descriptors c = .ok (ds, e) ∧
          Reaches SlotframeFine (fun d => SlotframeDescriptor.links d = .ok 0) 3 ds := by
        constructor
        · rintro (⟨h, -⟩ | ⟨-, c', ds, e, h, h'⟩)
          · exact absurd h hT
          · rw [h2] at h; cases h; exact ⟨ds, e, h'⟩
        · rintro ⟨ds, e, h⟩; exact .inr ⟨hS, c, ds, e, h2, h⟩
      rw [hrhs]
      by_cases hne : c = []
      · subst hne
        have e1 : TschSlotframeAndLink.new [] = .err := rfl
        have e2 : TschSlotframeAndLink.descriptors [] = .panic := rfl
        simp [e1, e2]
      · rw [(C23_reads_safe c hne).1]
        simp only [bind_ok, bind_ok_panic]
        exact slotframes_panics_iff c hne
    · have hb : ¬ Hazardous i := by
        rintro (⟨h, -⟩ | ⟨h, -⟩)
        · exact hT h
        · exact hS h
      have hb' : ¬ NestedBad i := by
        rintro (⟨h, -⟩ | ⟨h, -⟩)
        · exact hT h
        · exact hS h
      have := parse_nested_returns i h1 c h2 hb
      simp only [hb', iff_false]
      exact this

/-- A payload element makes the parser panic exactly if it is bad. -/
theorem payload_panics_iff (i : PayloadIe) (hg' : Returns (PayloadIe.groupId i))
    (hr : Returns (PayloadIe.content i)) : PayloadIeRepr.parse i = .panic ↔ PayloadBad i := by
  rw [PayloadIeRepr.parse]
  cases hg : PayloadIe.groupId i with
  | err => simp [PayloadBad, hg]
  | panic => rw [hg] at hg'; simp at hg'
  | ok g =>
    simp only [bind_ok]
    cases g <;> try (simp [PayloadBad, hg]; done)
    cases hc : PayloadIe.content i with
    | panic => rw [hc] at hr; simp at hr
    | err => simp [PayloadBad, hg, hc, PayloadIe.nestedIter]
    | ok q =>
      rw [C19_nested_only_mlme i .mlme q hg hc]
      simp only [if_true, bind_ok]
      obtain ⟨cs, e, rest, m1, -, -, -, m2⟩ := C19_nested_iteration q
      have hdat : (nestedIter q).data = q := rfl
      rw [hdat, forLoop_drain _ _ _ _ _ _ _ m1, bind_ok_panic, loop_break_panic 16 _ cs [] (by simp),
        List.length_nil, Nat.sub_zero]
      rw [reaches_congr (fun a _ => exists_congr fun r => nested_parse_iff a r) (fun a ha => by
        obtain ⟨-, n1, -, n2⟩ := m2 a ha
        exact nested_panics_iff a n2 _ n1)]
      constructor
      · intro h; exact ⟨hg, q, cs, e, hc, m1, h⟩
      · rintro ⟨-, q', cs', e', h1, h2, h3⟩
        rw [hc] at h1; cases h1
        rw [m1] at h2; cases h2
        exact h3

/-! ## C31 -/

/-- **C31**, exactly: for every octet string `DataFrame::new` accepts, `FrameRepr::parse` panics if
and only if the frame is bad.  In every other case it gives a frame (which one: C67) or an error. -/
theorem C31_panics_iff (b : Bytes) (h : DataFrame.new b = .ok b) :
    FrameRepr.parse b = .panic ↔ FrameBad b := by
  obtain ⟨-, o0, o1, seq, A, I, R, af, ie, hb, g1, g2, -, g4, gA, -, -, g7, g8, -, -, g10⟩ :=
    C11_split b b h
  simp only [dataApi] at g1 g2 g4 g7 g10
  have ha : ∃ x, mapOpt AddressingFieldsRepr.parse af = .ok x := by
    cases af with
    | none => exact ⟨none, rfl⟩
    | some af =>
      obtain ⟨dp, d, sp, s, -, k1, k2, k3, k4, -⟩ := gA
      exact ⟨some ⟨dp, some d, sp, some s⟩, by simp [mapOpt, AddressingFieldsRepr.parse, k1, k2, k3, k4]⟩
  obtain ⟨x, hx⟩ := ha
  rw [FrameRepr.parse, g1, bind_ok, FrameControlRepr.parse_cons, bind_ok, g4, bind_ok, hx, bind_ok,
    g7, bind_ok, g2, g10]
  simp only [bind_ok, bind_ok_panic]
  cases ie with
  | none => simp [mapOpt, FrameBad, g7]
  | some ie =>
    obtain ⟨-, gi, -⟩ := g8
    simp only [mapOpt, bind_ok_panic]
    obtain ⟨-, hs, ps, rest, hi, pi, e1, e2, -, -, -, -, d1, -, d2, -, q1, q2, -, -⟩ :=
      C15_partition _ ie gi
    have d1' := d1
    rw [InformationElements.headerDrain] at d1'
    have d2' := d2
    rw [InformationElements.payloadDrain] at d2'
    obtain ⟨it, k1, k2⟩ := bind_eq_ok.mp d2'
    rw [InformationElementsRepr.parse, forLoop_drain _ _ _ _ _ _ _ d1', k1]
    simp only [bind_ok]
    rw [forLoop_drain _ _ _ _ _ _ _ k2]
    have l1 := loop_break_ok 16 HeaderIeRepr.parse hi [] (by simp)
    have l2 := loop_break_panic 16 PayloadIeRepr.parse pi [] (by simp)
    rw [List.length_nil, Nat.sub_zero] at l1 l2
    rw [reaches_congr (fun a ha => exists_congr fun r =>
        payload_parse_iff a (returns_of_map q2.1 a ha) r)
      (fun a ha => payload_panics_iff a (returns_of_map q2.2.2 a ha)
        (returns_of_map q2.1 a ha))] at l2
    have hrhs : FrameBad b ↔ (∀ a ∈ hi.take 17, ∃ r, HeaderIeRepr.parse a = .ok r) ∧
        Reaches (fun p => ∃ r, PayloadSays p r) PayloadBad 16 pi := by
      constructor
      · rintro ⟨ie', hs', e, ps', e', m1, m2, m3, m4, m5⟩
        rw [g7] at m1; cases m1
        rw [d1] at m2; cases m2
        rw [d2] at m3; cases m3
        exact ⟨fun a ha => (m4 a ha).imp fun r => (header_parse_iff a r).mpr, m5⟩
      · rintro ⟨m4, m5⟩
        exact ⟨ie, hi, e1, pi, e2, g7, d1, d2,
          fun a ha => (m4 a ha).imp fun r => (header_parse_iff a r).mp, m5⟩
    have hret : Returns (loopList (pushOrBreak 16 HeaderIeRepr.parse) hi []) :=
      loopList_returns _ _ (fun a ha acc => pushOrBreak_returns _ _ _
        (parse_header_returns a (returns_of_map q1.2.2 a ha) (returns_of_map q1.1 a ha)) _) _
    rw [hrhs, ← l1, ← l2]
    cases hL : loopList (pushOrBreak 16 HeaderIeRepr.parse) hi [] with
    | panic => rw [hL] at hret; simp at hret
    | err => simp
    | ok l => simp [bind_ok_panic]

/-- So there are exactly three outcomes. -/
theorem C31_outcomes (b : Bytes) (h : DataFrame.new b = .ok b) :
    (∃ f, FrameRepr.parse b = .ok f ∧ FrameSays b f) ∨
    (FrameRepr.parse b = .panic ∧ FrameBad b) ∨
    (FrameRepr.parse b = .err ∧ ¬ FrameBad b ∧ ∀ f, ¬ FrameSays b f) := by
  cases hp : FrameRepr.parse b with
  | ok f => exact .inl ⟨f, rfl, (C67_parse_iff b h f).mp hp⟩
  | panic => exact .inr (.inl ⟨rfl, (C31_panics_iff b h).mp hp⟩)
  | err =>
    refine .inr (.inr ⟨rfl, fun hb => ?_, fun f hf => ?_⟩)
    · rw [(C31_panics_iff b h).mpr hb] at hp; cases hp
    · rw [(C67_parse_iff b h f).mpr hf] at hp; cases hp

/-- Both kinds of bad frames exist. -/
example : DataFrame.new timeslotFrame = .ok timeslotFrame ∧ FrameBad timeslotFrame ∧
    DataFrame.new slotframeFrame = .ok slotframeFrame ∧ FrameBad slotframeFrame :=
  ⟨by decide +kernel, (C31_panics_iff _ (by decide +kernel)).mp (by decide +kernel),
    by decide +kernel, (C31_panics_iff _ (by decide +kernel)).mp (by decide +kernel)⟩

/-- A hazardous element the parser does not get to: the frame of `C31_false_timeslot` with an
unsupported header element in front is refused, not fatal. -/
def refusedFrame : Bytes :=
  [0x01, 0x22, 0x07, 0x00, 0x0d, 0x00, 0x3f, 0x1c, 0x88, 0x1a, 0x1c, 0x01] ++ List.replicate 25 0

example : DataFrame.new refusedFrame = .ok refusedFrame ∧ FrameRepr.parse refusedFrame = .err ∧
    ¬ FrameBad refusedFrame := by
  have h : DataFrame.new refusedFrame = .ok refusedFrame := by decide +kernel
  have e : FrameRepr.parse refusedFrame = .err := by decide +kernel
  refine ⟨h, e, fun hb => ?_⟩
  rw [(C31_panics_iff _ h).mpr hb] at e
  cases e

end Dot15d4.Props
