import Verif.Spec.Builder
import Verif.Lemmas.ReprElements
import Mathlib.Data.List.Induction

/-! # The frame held by a builder after a history -/

namespace Dot15d4
open Out Spec

theorem lastOf_nil {α : Type} (g : Call → Option α) : lastOf g [] = none := rfl
theorem lastOf_snoc {α : Type} (g : Call → Option α) (cs : List Call) (c : Call) :
    lastOf g (cs ++ [c]) = (g c).or (lastOf g cs) := by
  simp only [lastOf, List.reverse_append, List.reverse_cons, List.reverse_nil, List.nil_append,
    List.cons_append, List.findSome?_cons]
  cases g c <;> rfl

theorem wantedHeader_snoc (cs : List Call) (c : Call) :
    wantedHeader (cs ++ [c]) = wantedHeader cs ++ (Call.header? c).toList := by
  rw [wantedHeader, List.filterMap_append]
  congr 1
theorem wantedElements_snoc (cs : List Call) (c : Call) :
    wantedElements (cs ++ [c]) = wantedElements cs ++ (Call.element? c).toList := by
  rw [wantedElements, List.filterMap_append]
  congr 1

/-- The builder state as a function of the history. -/
def expected (s : Start) (cs : List Call) : FrameBuilder where
  frameControl := {
    frameType := s.type
    securityEnabled := false
    framePending := false
    ackRequest := false
    panIdCompression := false
    seqNoSuppression := (wantedSeq s cs).isNone
    iePresent := wantsElements cs
    dstMode := modeOf (lastOf Call.dst? cs)
    srcMode := modeOf (lastOf Call.src? cs)
    frameVersion := wantedVersion s cs }
  sequenceNumber := wantedSeq s cs
  addressingFields := if wantsAddressing cs then some
    ⟨lastOf Call.dstPan? cs, lastOf Call.dst? cs, lastOf Call.srcPan? cs, lastOf Call.src? cs⟩ else none
  informationElements := if wantsElements cs then some ⟨wantedHeader cs, wantedElements cs⟩ else none
  payload := wantedPayload s cs

/-- The capacity of the two lists is not exceeded. -/
def InCapacity (cs : List Call) : Prop :=
  (wantedHeader cs).length ≤ 16 ∧ (wantedElements cs).length ≤ 16
instance (cs) : Decidable (InCapacity cs) := by unfold InCapacity; infer_instance

theorem expected_addr (s : Start) (cs : List Call) :
    ((expected s cs).addressingFields.getD {}) =
    ⟨lastOf Call.dstPan? cs, lastOf Call.dst? cs, lastOf Call.srcPan? cs, lastOf Call.src? cs⟩ := by
  simp only [expected]
  split
  · rfl
  · rename_i h
    simp only [wantsAddressing, Bool.or_eq_true, not_or, Bool.not_eq_true, Option.isSome_eq_false_iff,
      Option.isNone_iff_eq_none] at h
    obtain ⟨⟨⟨h1, h2⟩, h3⟩, h4⟩ := h
    simp [h1, h2, h3, h4]

theorem expected_ie (s : Start) (cs : List Call) :
    ((expected s cs).informationElements.getD {}) = ⟨wantedHeader cs, wantedElements cs⟩ := by
  simp only [expected]
  split
  · rfl
  · rename_i h
    simp only [wantsElements, Bool.or_eq_true, Bool.not_eq_true', List.isEmpty_eq_false_iff, not_or,
      ne_eq, Decidable.not_not] at h
    simp [h.1, h.2]

theorem history_snoc (s : Start) (cs : List Call) (c : Call) :
    history s (cs ++ [c]) = (history s cs >>= fun f => Call.run f c) := by
  simp only [history, List.foldlM_append, List.foldlM_cons, List.foldlM_nil, bind_pure]

theorem inCapacity_prefix {cs : List Call} {c : Call} (h : InCapacity (cs ++ [c])) :
    InCapacity cs := by
  simp only [InCapacity, wantedHeader_snoc, wantedElements_snoc, List.length_append] at h ⊢
  omega

/-- After a history within capacity the builder holds the expected frame; otherwise an `unwrap`
has panicked. -/
theorem history_eq (s : Start) (cs : List Call) :
    history s cs = if InCapacity cs then .ok (expected s cs) else .panic := by
  induction cs using List.reverseRecOn with
  | nil =>
    rw [if_pos (by decide)]
    cases s <;> rfl
  | append_singleton cs c ih =>
    rw [history_snoc, ih]
    by_cases hc : InCapacity cs
    · rw [if_pos hc, bind_ok]
      have ea := expected_addr s cs
      have ei := expected_ie s cs
      have hw : wantsElements (cs ++ [c]) = (wantsElements cs || (Call.header? c).isSome ||
          (Call.element? c).isSome) := by
        simp only [wantsElements, wantedHeader_snoc, wantedElements_snoc]
        cases c <;> simp [Call.header?, Call.element?]
      have hwa : wantsAddressing (cs ++ [c]) = (wantsAddressing cs || (Call.dstPan? c).isSome ||
          (Call.srcPan? c).isSome || (Call.dst? c).isSome || (Call.src? c).isSome) := by
        simp only [wantsAddressing, lastOf_snoc]
        cases c <;> simp [Call.dstPan?, Call.srcPan?, Call.dst?, Call.src?]
      cases c
      case headerElement x =>
        simp only [Call.run, FrameBuilder.addHeaderIe, ei, FrameBuilder.push16]
        by_cases hl : (wantedHeader cs).length < 16
        · rw [if_pos hl, if_pos (by
            simp only [InCapacity, wantedHeader_snoc, wantedElements_snoc] at hc ⊢
            simp [Call.header?, Call.element?]; omega)]
          simp only [bind_ok, ok.injEq]
          simp [expected, hw, hwa, wantedSeq, wantedPayload, lastOf_snoc, Call.seq?, Call.dstPan?,
            Call.srcPan?, Call.dst?, Call.src?, Call.payload?, Call.header?, Call.element?,
            wantedHeader_snoc, wantedElements_snoc, wantedVersion]
        · rw [if_neg hl, if_neg (by
            simp only [InCapacity, wantedHeader_snoc, wantedElements_snoc] at hc ⊢
            simp [Call.header?, Call.element?]; omega)]
          rfl
      case payloadElement x =>
        simp only [Call.run, FrameBuilder.addPayloadIe, ei, FrameBuilder.push16]
        by_cases hl : (wantedElements cs).length < 16
        · rw [if_pos hl, if_pos (by
            simp only [InCapacity, wantedHeader_snoc, wantedElements_snoc] at hc ⊢
            simp [Call.header?, Call.element?]; omega)]
          simp only [bind_ok, ok.injEq]
          simp [expected, hw, hwa, wantedSeq, wantedPayload, lastOf_snoc, Call.seq?, Call.dstPan?,
            Call.srcPan?, Call.dst?, Call.src?, Call.payload?, Call.header?, Call.element?,
            wantedHeader_snoc, wantedElements_snoc, wantedVersion]
        · rw [if_neg hl, if_neg (by
            simp only [InCapacity, wantedHeader_snoc, wantedElements_snoc] at hc ⊢
            simp [Call.header?, Call.element?]; omega)]
          rfl
      all_goals
        rw [if_pos (by
          simp only [InCapacity, wantedHeader_snoc, wantedElements_snoc] at hc ⊢
          simp [Call.header?, Call.element?]; omega)]
        simp only [Call.run, ok.injEq, FrameBuilder.setSequenceNumber, FrameBuilder.setDstPanId,
          FrameBuilder.setSrcPanId, FrameBuilder.setDstAddress, FrameBuilder.setSrcAddress,
          FrameBuilder.setPayload, FrameBuilder.updAddr]
        have ea' := ea
        simp only [expected] at ea'
        simp [expected, ea', hw, hwa, wantedSeq, wantedPayload, lastOf_snoc, Call.seq?, Call.dstPan?,
          Call.srcPan?, Call.dst?, Call.src?, Call.payload?, Call.header?, Call.element?,
          wantedHeader_snoc, wantedElements_snoc, wantedVersion, modeOf]
    · rw [if_neg hc, if_neg (fun h => hc (inCapacity_prefix h))]
      rfl

end Dot15d4
