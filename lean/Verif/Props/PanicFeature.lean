import Verif.Model.ReprPanic
import Verif.Props.Parse
import Verif.Lemmas.NoErr

/-!
# C71: the cargo feature `panic`
-/

namespace Dot15d4.Props
open Dot15d4 Out Spec PanicFeature

/-- The first outcome is the second, except that an error may have become a panic. -/
def Louder {α : Type} (x y : Out α) : Prop := x = y ∨ x = .panic ∧ y = .err

namespace Louder

theorem rfl' {α : Type} (x : Out α) : Louder x x := .inl rfl

theorem bind {α β : Type} {x y : Out α} {f g : α → Out β} (h : Louder x y)
    (hf : ∀ a, Louder (f a) (g a)) : Louder (x >>= f) (y >>= g) := by
  rcases h with rfl | ⟨rfl, rfl⟩
  · cases x with
    | ok a => exact hf a
    | err => exact .inl rfl
    | panic => exact .inl rfl
  · exact .inr ⟨rfl, rfl⟩

theorem same {α β : Type} {x : Out α} {f g : α → Out β} (hf : ∀ a, Louder (f a) (g a)) :
    Louder (x >>= f) (x >>= g) := bind (rfl' x) hf

theorem forLoop {σ α β : Type} (next : σ → Out (Option α × σ)) {f g : α → β → Out (Bool × β)}
    (h : ∀ a b, Louder (f a b) (g a b)) (n : Nat) : ∀ (s : σ) (acc : β),
    Louder (forLoop next f n s acc) (Dot15d4.forLoop next g n s acc) := by
  induction n with
  | zero => intro s acc; exact rfl' _
  | succ n ih =>
    intro s acc
    rw [Dot15d4.forLoop, Dot15d4.forLoop]
    refine same fun r => ?_
    obtain ⟨_ | a, s'⟩ := r
    · exact rfl' _
    · refine bind (h a acc) fun t => ?_
      split
      · exact rfl' _
      · exact ih _ _

theorem pushBreak {α β : Type} (cap : Nat) {f g : α → Out β} (h : ∀ a, Louder (f a) (g a)) (a : α)
    (acc : List β) : Louder (pushOrBreak cap f a acc) (pushOrBreak cap g a acc) :=
  bind (h a) fun _ => rfl' _

theorem pushPanic {α β : Type} (cap : Nat) {f g : α → Out β} (h : ∀ a, Louder (f a) (g a)) (a : α)
    (acc : List β) : Louder (pushOrPanic cap f a acc) (pushOrErr cap g a acc) := by
  refine bind (h a) fun _ => ?_
  split
  · exact rfl' _
  · exact .inr ⟨rfl, rfl⟩

end Louder

theorem louder_header (i : HeaderIe) : Louder (headerParse i) (HeaderIeRepr.parse i) := by
  refine Louder.same fun id => ?_
  cases id
  case timeCorrection => exact Louder.rfl' _
  case headerTermination1 => exact Louder.rfl' _
  case headerTermination2 => exact Louder.rfl' _
  all_goals exact .inr ⟨rfl, rfl⟩

theorem louder_slotframe (i : SlotframeDescriptor) :
    Louder (slotframeParse i) (SlotframeDescriptorRepr.parse i) := by
  unfold slotframeParse SlotframeDescriptorRepr.parse
  refine Louder.same fun it => ?_
  refine Louder.bind ?_ fun _ => Louder.rfl' _
  exact Louder.forLoop _ (fun a b => Louder.pushPanic _ (fun _ => Louder.rfl' _) a b) _ _ _

theorem louder_slotframes (i : TschSlotframeAndLink) :
    Louder (slotframesParse i) (TschSlotframeAndLinkRepr.parse i) := by
  unfold slotframesParse TschSlotframeAndLinkRepr.parse
  refine Louder.same fun it => ?_
  refine Louder.bind ?_ fun _ => Louder.rfl' _
  exact Louder.forLoop _ (fun a b => Louder.pushPanic _ louder_slotframe a b) _ _ _

theorem louder_nested (i : NestedIe) : Louder (nestedParse i) (NestedIeRepr.parse i) := by
  unfold nestedParse NestedIeRepr.parse
  refine Louder.same fun id => ?_
  rcases id with id | id
  · cases id
    case tschSynchronization => exact Louder.rfl' _
    case tschTimeslot => exact Louder.rfl' _
    case tschSlotframeAndLink =>
      dsimp only
      refine Louder.same fun _ => Louder.same fun _ => ?_
      exact Louder.bind (louder_slotframes _) fun _ => Louder.rfl' _
    all_goals exact .inr ⟨rfl, rfl⟩
  · cases id
    case channelHopping => exact Louder.rfl' _
    all_goals exact .inr ⟨rfl, rfl⟩

theorem louder_payload (i : PayloadIe) : Louder (payloadParse i) (PayloadIeRepr.parse i) := by
  unfold payloadParse PayloadIeRepr.parse
  refine Louder.same fun g => ?_
  cases g
  case mlme =>
    dsimp only
    refine Louder.same fun it => ?_
    refine Louder.bind ?_ fun _ => Louder.rfl' _
    exact Louder.forLoop _ (fun a b => Louder.pushBreak _ louder_nested a b) _ _ _
  all_goals exact Louder.rfl' _

theorem louder_elements (i : InformationElements) :
    Louder (elementsParse i) (InformationElementsRepr.parse i) := by
  unfold elementsParse InformationElementsRepr.parse
  refine Louder.bind ?_ fun _ => ?_
  · exact Louder.forLoop _ (fun a b => Louder.pushBreak _ louder_header a b) _ _ _
  · refine Louder.same fun it => ?_
    refine Louder.bind ?_ fun _ => Louder.rfl' _
    exact Louder.forLoop _ (fun a b => Louder.pushBreak _ louder_payload a b) _ _ _

theorem louder_opt {α β : Type} {f g : α → Out β} (h : ∀ a, Louder (f a) (g a)) (o : Option α) :
    Louder (mapOpt f o) (mapOpt g o) := by
  cases o with
  | none => exact Louder.rfl' _
  | some a => exact Louder.bind (h a) fun _ => Louder.rfl' _

theorem louder_frame (b : DataFrame) : Louder (frameParse b) (FrameRepr.parse b) := by
  unfold frameParse FrameRepr.parse
  refine Louder.same fun fc => ?_
  refine Louder.same fun frameControl => ?_
  refine Louder.same fun af => ?_
  refine Louder.same fun addressingFields => ?_
  refine Louder.same fun ie => ?_
  refine Louder.bind (louder_opt louder_elements ie) fun _ => ?_
  exact Louder.rfl' _

/-- **C71**, the feature is harmless to what succeeds: for every octet string, `FrameRepr::parse`
with the feature gives what it gives without it, except that an error may become a panic.  In
particular it gives a frame with the feature iff it gives that frame without it. -/
theorem C71_same (b : DataFrame) :
    frameParse b = FrameRepr.parse b ∨ frameParse b = .panic ∧ FrameRepr.parse b = .err :=
  louder_frame b

/-- **C71**, the full property, as the comment on the feature has it (dot15d4-frame/Cargo.toml:30-33):
instead of an error for an unknown type there is a panic where the type is encountered, be it a header
element, an element nested in an MLME element, or a payload element. -/
def C71_statement : Prop :=
  (∀ (i : HeaderIe) (id : HeaderElementId), HeaderIe.elementId i = .ok id →
    id ∉ [.timeCorrection, .headerTermination1, .headerTermination2] → headerParse i = .panic) ∧
  (∀ (i : NestedIe) (id : NestedSubId), NestedIe.subId i = .ok id →
    id ∉ [.short .tschSynchronization, .short .tschTimeslot, .short .tschSlotframeAndLink,
      .long .channelHopping] → nestedParse i = .panic) ∧
  ∀ (i : PayloadIe) (g : PayloadGroupId), PayloadIe.groupId i = .ok g → g ≠ .mlme →
    payloadParse i = .panic

/-- **C71** is false of the code: payload elements other than MLME ones are refused with an error, in
every case. -/
theorem C71_false : ¬ C71_statement ∧
    ∀ (i : PayloadIe) (g : PayloadGroupId), PayloadIe.groupId i = .ok g → g ≠ .mlme →
      payloadParse i = .err := by
  have h : ∀ (i : PayloadIe) (g : PayloadGroupId), PayloadIe.groupId i = .ok g → g ≠ .mlme →
      payloadParse i = .err := by
    intro i g h hg
    unfold payloadParse
    rw [h, bind_ok]
    cases g <;> first | rfl | exact absurd rfl hg
  refine ⟨fun ⟨_, _, c⟩ => ?_, h⟩
  have h1 : PayloadIe.groupId [0x00, 0x80] = .ok .esdu := by decide
  have h2 := c _ _ h1 (by decide)
  rw [h _ _ h1 (by decide)] at h2
  cases h2

/-- **C71**, what holds (`_partial`: payload elements are excluded): header elements and nested
elements of unknown types panic, whatever their content; without the feature they are errors. -/
theorem C71_unknown_partial :
    (∀ (i : HeaderIe) (id : HeaderElementId), HeaderIe.elementId i = .ok id →
      id ∉ [.timeCorrection, .headerTermination1, .headerTermination2] →
        headerParse i = .panic ∧ HeaderIeRepr.parse i = .err) ∧
    (∀ (i : NestedIe) (id : NestedSubId), NestedIe.subId i = .ok id →
      id ∉ [.short .tschSynchronization, .short .tschTimeslot, .short .tschSlotframeAndLink,
        .long .channelHopping] → nestedParse i = .panic ∧ NestedIeRepr.parse i = .err) := by
  constructor
  · intro i id h hid
    unfold headerParse HeaderIeRepr.parse
    rw [h, bind_ok, bind_ok]
    cases id <;> first | exact ⟨rfl, rfl⟩ | (simp at hid)
  · intro i id h hid
    unfold nestedParse NestedIeRepr.parse
    rw [h, bind_ok, bind_ok]
    rcases id with id | id <;> cases id <;> first | exact ⟨rfl, rfl⟩ | (simp at hid)

/-- A vendor specific header element and a nested enhanced beacon filter. -/
example : headerParse [0x00, 0x00] = .panic ∧ nestedParse [0x00, 0x1e] = .panic :=
  ⟨(C71_unknown_partial.1 _ .vendorSpecificHeader (by decide) (by decide)).1,
   (C71_unknown_partial.2 _ (.short .enhancedBeaconFilter) (by decide) (by decide)).1⟩

theorem noErr_forLoop {σ α β : Type} {next : σ → Out (Option α × σ)} {f : α → β → Out (Bool × β)}
    (h1 : ∀ s, NoErr (next s)) (h2 : ∀ a b, NoErr (f a b)) (n : Nat) : ∀ (s : σ) (acc : β),
    NoErr (forLoop next f n s acc) := by
  induction n with
  | zero => intro s acc; exact NoErr.ok _
  | succ n ih =>
    intro s acc
    rw [Dot15d4.forLoop]
    refine (h1 s).bind fun r _ => ?_
    obtain ⟨_ | a, s'⟩ := r
    · exact NoErr.ok _
    · refine (h2 a acc).bind fun t _ => ?_
      split
      · exact NoErr.ok _
      · exact ih _ _

theorem noErr_push {α β : Type} (cap : Nat) {f : α → Out β} (h : ∀ a, NoErr (f a)) (a : α)
    (acc : List β) : NoErr (pushOrPanic cap f a acc) := by
  refine (h a).bind fun _ _ => ?_
  split
  · exact NoErr.ok _
  · exact NoErr.panic

theorem noErr_linkNext (s : IeIter) : NoErr (linkNext s) := by
  unfold linkNext
  split
  · exact NoErr.ok _
  · exact (NoErr.sliceFrom ..).bind fun _ _ => NoErr.ok _

theorem noErr_slotframeNext (s : SlotframeIter) : NoErr (slotframeNext s) := by
  unfold slotframeNext
  split
  · exact NoErr.ok _
  · refine (NoErr.sliceFrom ..).bind fun _ _ => (NoErr.toOption _).bind fun r _ => ?_
    cases r with
    | none => exact NoErr.ok _
    | some d =>
      exact ((NoErr.idx ..).bind fun _ _ => NoErr.ok _).bind fun _ _ => NoErr.ok _

theorem noErr_link (i : LinkInformation) : NoErr (LinkInformationRepr.parse i) :=
  (NoErr.readU16 _).bind fun _ _ => ((NoErr.sliceFrom ..).bind fun _ _ => NoErr.readU16 _).bind
    fun _ _ => ((NoErr.idx ..).bind fun _ _ => NoErr.ok _).bind fun _ _ => NoErr.ok _

theorem noErr_slotframe (i : SlotframeDescriptor) : NoErr (slotframeParse i) := by
  unfold slotframeParse
  refine ((NoErr.sliceFrom ..).bind fun _ _ => (NoErr.idx ..).bind fun _ _ =>
    (NoErr.sliceTo ..).bind fun _ _ => NoErr.ok _).bind fun it _ => ?_
  refine (noErr_forLoop noErr_linkNext (noErr_push _ noErr_link) _ _ _).bind fun _ _ => ?_
  exact (NoErr.idx ..).bind fun _ _ => ((NoErr.sliceFrom ..).bind fun _ _ => NoErr.readU16 _).bind
    fun _ _ => NoErr.ok _

theorem noErr_slotframes (i : TschSlotframeAndLink) : NoErr (slotframesParse i) := by
  unfold slotframesParse
  refine ((NoErr.idx ..).bind fun _ _ => (NoErr.sliceFrom ..).bind fun _ _ => NoErr.ok _).bind
    fun it _ => ?_
  exact (noErr_forLoop noErr_slotframeNext (noErr_push _ noErr_slotframe) _ _ _).bind
    fun _ _ => NoErr.ok _

/-- **C71**, the capacities: slotframe elements with more than three slotframes, or with a slotframe
of more than four links, which are errors without the feature (`C67_too_many`), panic with it. -/
theorem C71_too_many (i : NestedIe) (c : Bytes) (ds : List SlotframeDescriptor) (e : SlotframeIter)
    (hid : NestedIe.subId i = .ok (.short .tschSlotframeAndLink)) (hc : NestedIe.content i = .ok c)
    (hd : TschSlotframeAndLink.descriptors c = .ok (ds, e))
    (h0 : ∀ t ∈ ds, SlotframeDescriptor.links t ≠ .ok 0)
    (h : 3 < ds.length ∨ ∃ t ∈ ds, ∃ n, SlotframeDescriptor.links t = .ok n ∧ 4 < n.toNat) :
    nestedParse i = .panic := by
  have h1 := C67_too_many i c ds e hid hc hd h0 h
  have h2 : TschSlotframeAndLink.new c = .ok c := by
    cases c with
    | nil => cases hd
    | cons n d => exact TschSlotframeAndLink.new_cons n d
  have h3 : NoErr (nestedParse i) := by
    unfold nestedParse
    rw [hid, bind_ok]
    dsimp only
    rw [hc, bind_ok, h2, bind_ok]
    exact (noErr_slotframes c).bind fun _ _ => NoErr.ok _
  rcases louder_nested i with h4 | ⟨h4, -⟩
  · rw [h1] at h4; exact absurd h4 h3.ne
  · exact h4

example : nestedParse ([0x1e, 0x1b, 0x01] ++ fiveLinks) = .panic :=
  C71_too_many _ ([0x01] ++ fiveLinks) [fiveLinks] _ rfl rfl rfl (by decide +kernel)
    (.inr ⟨fiveLinks, by simp, 5, rfl, by decide⟩)

/-- The unknown types of a whole frame: a data frame with a vendor specific header element is an
error without the feature and a panic with it. -/
def vendorFrame : Bytes :=
  [0x01, 0x22, 0x2a, 0x00, 0x00, 0x00, 0x3f]

example : DataFrame.new vendorFrame = .ok vendorFrame ∧ FrameRepr.parse vendorFrame = .err ∧
    frameParse vendorFrame = .panic := by decide +kernel

/-- The frame of C67 is read alike. -/
example : frameParse richFrame = .ok richRepr := by decide +kernel

end Dot15d4.Props
