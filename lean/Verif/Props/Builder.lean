import Verif.Lemmas.Builder

/-! # C28: the frame builder -/

namespace Dot15d4.Props
open Out Spec

/-- The frame control field describes the frame. -/
structure Consistent (f : FrameRepr) : Prop where
  /-- The sequence number is suppressed exactly if there is none. -/
  seq : f.frameControl.seqNoSuppression = f.sequenceNumber.isNone
  /-- The element bit is set exactly if there are elements. -/
  ie : f.frameControl.iePresent = f.informationElements.isSome
  /-- The destination mode is the kind of the destination address. -/
  dst : f.frameControl.dstMode = modeOf (f.addressingFields.bind (·.dstAddress))
  /-- The source mode is the kind of the source address. -/
  src : f.frameControl.srcMode = modeOf (f.addressingFields.bind (·.srcAddress))
  /-- The PAN ids are those the table demands. -/
  pan : ∀ a, f.addressingFields = some a →
    pans f.frameControl.frameVersion f.frameControl.dstMode f.frameControl.srcMode
      f.frameControl.panIdCompression = some ⟨a.dstPanId.isSome, a.srcPanId.isSome⟩
  /-- Only immediate acknowledgments have no addressing fields; nothing is compressed there. -/
  none : f.addressingFields = none → f.frameControl.frameType = .ack ∧
    f.frameControl.frameVersion = .v2006 ∧ f.frameControl.panIdCompression = false
  /-- Elements exist since 2020. -/
  version : f.informationElements.isSome → f.frameControl.frameVersion = .v2020
  /-- The remaining bits are clear. -/
  clear : f.frameControl.securityEnabled = false ∧ f.frameControl.framePending = false ∧
    f.frameControl.ackRequest = false

/-- The frame is the one asked for: everything given is in it, except a destination PAN id given
without a destination address and a source PAN id given without a source address or equal to the
destination's. -/
structure AsAsked (s : Start) (cs : List Call) (f : FrameRepr) : Prop where
  type : f.frameControl.frameType = s.type
  version : f.frameControl.frameVersion = wantedVersion s cs
  seq : f.sequenceNumber = wantedSeq s cs
  payload : f.payload = wantedPayload s cs
  ie : f.informationElements =
    if wantsElements cs then some ⟨wantedHeader cs, wantedElements cs⟩ else none
  addr : ∀ a, f.addressingFields = some a →
    a.dstAddress = lastOf Call.dst? cs ∧ a.srcAddress = lastOf Call.src? cs ∧
    (a.dstPanId = lastOf Call.dstPan? cs ∨ a.dstPanId = none ∧ a.dstAddress = none) ∧
    (a.srcPanId = lastOf Call.srcPan? cs ∨ a.srcPanId = none ∧ (a.srcAddress = none ∨
      a.dstPanId.isSome ∧ lastOf Call.srcPan? cs = a.dstPanId))

/-- No call gives the address `Address::Absent`. -/
def NoAbsent (cs : List Call) : Prop :=
  Call.dstAddress .absent ∉ cs ∧ Call.srcAddress .absent ∉ cs
instance (cs) : Decidable (NoAbsent cs) := by unfold NoAbsent; infer_instance

/-- The history is that of an immediate acknowledgment. -/
def IsImmAck (s : Start) (cs : List Call) : Prop :=
  s.type = .ack ∧ wantedVersion s cs = .v2006
instance (s cs) : Decidable (IsImmAck s cs) := by unfold IsImmAck; infer_instance

private theorem lastOf_mem {α : Type} {g : Call → Option α} {cs : List Call} {x : α}
    (h : lastOf g cs = some x) : ∃ c ∈ cs, g c = some x := by
  obtain ⟨c, hc, e⟩ := List.exists_of_findSome?_eq_some h
  exact ⟨c, by simpa using hc, e⟩

theorem last_dst_ne (cs : List Call) (h : NoAbsent cs) : lastOf Call.dst? cs ≠ some .absent := by
  intro e
  obtain ⟨c, hc, e⟩ := lastOf_mem e
  cases c <;> simp [Call.dst?] at e
  subst e; exact h.1 hc

theorem last_src_ne (cs : List Call) (h : NoAbsent cs) : lastOf Call.src? cs ≠ some .absent := by
  intro e
  obtain ⟨c, hc, e⟩ := lastOf_mem e
  cases c <;> simp [Call.src?] at e
  subst e; exact h.2 hc

theorem version_cases (s : Start) (cs : List Call) :
    wantedVersion s cs = .v2020 ∨ wantedVersion s cs = .v2006 := by
  unfold wantedVersion; split
  · exact .inl rfl
  · cases s <;> simp

theorem version_elements {s : Start} {cs : List Call} (h : wantsElements cs = true) :
    wantedVersion s cs = .v2020 := by simp [wantedVersion, h]

theorem build_cases {s : Start} {cs : List Call} {f : FrameRepr} (h : build s cs = .ok f) :
    InCapacity cs ∧ FrameBuilder.finalize (expected s cs) = .ok f := by
  rw [build, history_eq] at h
  by_cases hc : InCapacity cs
  · rw [if_pos hc] at h; exact ⟨hc, h⟩
  · rw [if_neg hc] at h; cases h

/-- What a compression table does to the addressing fields. -/
private structure Compressed (v : FrameVersion) (a : AddressingFieldsRepr)
    (p : Bool × AddressingFieldsRepr) : Prop where
  dst : p.2.dstAddress = a.dstAddress
  src : p.2.srcAddress = a.srcAddress
  dstPan : p.2.dstPanId = a.dstPanId ∨ p.2.dstPanId = none ∧ a.dstAddress = none
  srcPan : p.2.srcPanId = a.srcPanId ∨ p.2.srcPanId = none ∧ (a.srcAddress = none ∨
    p.2.dstPanId.isSome ∧ a.srcPanId = p.2.dstPanId)
  pan : pans v (modeOf a.dstAddress) (modeOf a.srcAddress) p.1 =
    some ⟨p.2.dstPanId.isSome, p.2.srcPanId.isSome⟩

private theorem compress2020_spec (a : AddressingFieldsRepr) (p) (hd : a.dstAddress ≠ some .absent)
    (hs : a.srcAddress ≠ some .absent) (h : FrameBuilder.compress2020 a = .ok p) :
    Compressed .v2020 a p := by
  obtain ⟨dp, d, sp, s⟩ := a
  simp only at hd hs
  rcases d with _ | (_ | d | d) <;> rcases s with _ | (_ | s | s) <;>
    first
    | exact absurd rfl hd
    | exact absurd rfl hs
    | (rcases dp with _ | dp <;> rcases sp with _ | sp <;>
        simp only [FrameBuilder.compress2020, reduceCtorEq, ok.injEq] at h <;>
        first
        | (subst h; exact ⟨rfl, rfl, .inl rfl, .inl rfl, rfl⟩)
        | (unfold FrameBuilder.sameOrNot at h
           split at h
           · rename_i e; subst e; subst h
             exact ⟨rfl, rfl, .inl rfl, .inr ⟨rfl, .inr ⟨rfl, rfl⟩⟩, rfl⟩
           · subst h; exact ⟨rfl, rfl, .inl rfl, .inl rfl, rfl⟩))

private theorem compress2006_spec (a : AddressingFieldsRepr) (p) (hd : a.dstAddress ≠ some .absent)
    (hs : a.srcAddress ≠ some .absent) (h : FrameBuilder.compress2006 false a = .ok p) :
    Compressed .v2006 a p := by
  obtain ⟨dp, d, sp, s⟩ := a
  simp only at hd hs
  rcases d with _ | (_ | d | d) <;> rcases s with _ | (_ | s | s) <;>
    first
    | exact absurd rfl hd
    | exact absurd rfl hs
    | (rcases dp with _ | dp <;> rcases sp with _ | sp <;>
        simp only [FrameBuilder.compress2006, reduceCtorEq, ok.injEq] at h <;>
        first
        | (subst h; exact ⟨rfl, rfl, .inl rfl, .inl rfl, rfl⟩)
        | (subst h; exact ⟨rfl, rfl, .inl rfl, .inr ⟨rfl, .inl rfl⟩, rfl⟩)
        | (subst h; exact ⟨rfl, rfl, .inr ⟨rfl, rfl⟩, .inl rfl, rfl⟩)
        | (split at h
           · rename_i e; subst e; simp only [ok.injEq] at h; subst h
             exact ⟨rfl, rfl, .inl rfl, .inr ⟨rfl, .inr ⟨rfl, rfl⟩⟩, rfl⟩
           · simp only [ok.injEq] at h; subst h; exact ⟨rfl, rfl, .inl rfl, .inl rfl, rfl⟩))

/-- **C28**.  Whatever the history, if `finalize` succeeds, the frame's control field describes the
frame, and the frame is what was asked for.  Missing: immediate acknowledgments for which an
address was given (`C28_false`). -/
theorem C28_consistent_partial (s : Start) (cs : List Call) (f : FrameRepr)
    (h : build s cs = .ok f) (ha : NoAbsent cs)
    (hi : IsImmAck s cs → lastOf Call.dst? cs = none ∧ lastOf Call.src? cs = none) :
    Consistent f ∧ AsAsked s cs f := by
  obtain ⟨-, h⟩ := build_cases h
  have hd := last_dst_ne cs ha
  have hs := last_src_ne cs ha
  have hve := @version_elements s cs
  have e1 : (expected s cs).frameControl.frameVersion = wantedVersion s cs := rfl
  have e2 : (expected s cs).frameControl.frameType = s.type := rfl
  have e3 : (expected s cs).addressingFields = if wantsAddressing cs then some
    ⟨lastOf Call.dstPan? cs, lastOf Call.dst? cs, lastOf Call.srcPan? cs, lastOf Call.src? cs⟩
    else none := rfl
  have e4 : (expected s cs).frameControl.panIdCompression = false := rfl
  rw [FrameBuilder.finalize, e1, e2, e3, e4] at h
  have fin : ∀ p, Compressed (wantedVersion s cs) ⟨lastOf Call.dstPan? cs, lastOf Call.dst? cs,
      lastOf Call.srcPan? cs, lastOf Call.src? cs⟩ p →
      f = FrameBuilder.withAddr (expected s cs) p → Consistent f ∧ AsAsked s cs f := by
    rintro p ⟨c1, c2, c3, c4, c5⟩ rfl
    simp only at c1 c2 c3 c4 c5
    refine ⟨⟨rfl, ?_, ?_, ?_, ?_, ?_, ?_, ⟨rfl, rfl, rfl⟩⟩, ⟨rfl, rfl, rfl, rfl, rfl, ?_⟩⟩
    · simp only [FrameBuilder.withAddr, expected]; split <;> simp_all
    · simp [FrameBuilder.withAddr, expected, c1]
    · simp [FrameBuilder.withAddr, expected, c2]
    · intro a e
      simp only [FrameBuilder.withAddr, Option.some.injEq] at e
      subst e
      exact c5
    · intro e; cases e
    · intro e
      simp only [FrameBuilder.withAddr, expected] at e ⊢
      split at e
      · exact hve ‹_›
      · cases e
    · intro a e
      simp only [FrameBuilder.withAddr, Option.some.injEq] at e
      subst e
      exact ⟨c1, c2, by rw [c1]; exact c3, by rw [c2]; exact c4⟩
  by_cases hv : wantedVersion s cs = .v2020
  · rw [if_pos hv] at h
    by_cases hw : wantsAddressing cs = true
    · rw [if_pos hw] at h
      obtain ⟨p, h1, h2⟩ := bind_eq_ok.mp h
      simp only [ok.injEq] at h2
      exact fin p (by rw [hv]; exact compress2020_spec _ p hd hs h1) h2.symm
    · rw [if_neg hw] at h; cases h
  · have hv' : wantedVersion s cs = .v2006 := (version_cases s cs).resolve_left hv
    rw [if_neg hv] at h
    by_cases ht : s.type = .ack
    · rw [if_pos ht] at h
      obtain ⟨h1, h2⟩ := hi ⟨ht, hv'⟩
      split at h
      · cases h
      · simp only [ok.injEq] at h
        subst h
        have hne : wantsElements cs = false := by
          cases hw : wantsElements cs with
          | false => rfl
          | true => exact absurd (hve hw) hv
        refine ⟨⟨rfl, ?_, ?_, ?_, ?_, ?_, ?_, ⟨rfl, rfl, rfl⟩⟩, ⟨rfl, rfl, rfl, rfl, rfl, ?_⟩⟩
        · simp [expected, hne]
        · simp [expected, h1]
        · simp [expected, h2]
        · intro a e; cases e
        · intro _; exact ⟨ht, hv', rfl⟩
        · intro e; simp [expected, hne] at e
        · intro a e; cases e
    · rw [if_neg ht] at h
      by_cases hw : wantsAddressing cs = true
      · rw [if_pos hw] at h
        obtain ⟨p, h1, h2⟩ := bind_eq_ok.mp h
        simp only [ok.injEq] at h2
        exact fin p (by rw [hv']; exact compress2006_spec _ p hd hs h1) h2.symm
      · rw [if_neg hw] at h; cases h

/-- A history meeting the hypotheses, with every kind of call. -/
example : ∃ f, build (.data [1, 2, 3]) [.sequenceNumber 7, .dstPanId 0xabcd, .srcPanId 0xabcd,
    .dstAddress (.short ⟨[1, 2], rfl⟩), .srcAddress (.extended ⟨[1, 2, 3, 4, 5, 6, 7, 8], rfl⟩),
    .headerElement (.timeCorrection ⟨⟨3⟩, false⟩), .payload [9]] = .ok f ∧
    f.frameControl.panIdCompression = true ∧ f.sequenceNumber = some 7 := ⟨_, rfl, rfl, rfl⟩

/-- C28 in full is false: an immediate acknowledgment built with an address has an addressing mode
but no address. -/
theorem C28_false : ∃ (s : Start) (cs : List Call) (f : FrameRepr), NoAbsent cs ∧
    build s cs = .ok f ∧ f.addressingFields = none ∧ f.frameControl.dstMode = .short ∧
    ¬ Consistent f :=
  ⟨.immAck 1, [.dstAddress (.short ⟨[1, 2], rfl⟩)], _, by decide, rfl, rfl, rfl,
    fun h => absurd h.dst (by decide)⟩

/-- The condition on `Absent` is needed: with it, the table does not fit. -/
theorem C28_absent_needed : ∃ (s : Start) (cs : List Call) (f : FrameRepr),
    build s cs = .ok f ∧ ¬ IsImmAck s cs ∧ ¬ Consistent f :=
  ⟨.data [1], [.dstAddress .absent, .dstPanId 5, .srcAddress (.short ⟨[1, 2], rfl⟩),
    .srcPanId 6], _, rfl, by decide, fun h => absurd (h.pan _ rfl) (by decide)⟩

/-- **C28**, totality.  A history panics exactly if it adds more than 16 elements to a list;
`finalize` itself never does. -/
theorem C28_panics_iff (s : Start) (cs : List Call) :
    (build s cs = .panic ↔ 16 < (wantedHeader cs).length ∨ 16 < (wantedElements cs).length) := by
  rw [build, history_eq]
  by_cases hc : InCapacity cs
  · rw [if_pos hc, bind_ok]
    have h1 : ∀ c a, FrameBuilder.compress2006 c a ≠ .panic := by
      intro c a; unfold FrameBuilder.compress2006
      split <;> (try split) <;> simp
    have h2 : ∀ a, FrameBuilder.compress2020 a ≠ .panic := by
      intro a; unfold FrameBuilder.compress2020
      split <;> simp
    have h3 : FrameBuilder.finalize (expected s cs) ≠ .panic := by
      unfold FrameBuilder.finalize
      split
      · split
        · simp
        · rename_i a _
          cases h : FrameBuilder.compress2020 a with
          | ok p => simp
          | err => simp
          | panic => exact absurd h (h2 a)
      · split
        · split <;> simp
        · split
          · simp
          · rename_i a _
            cases h : FrameBuilder.compress2006 (expected s cs).frameControl.panIdCompression a with
            | ok p => simp
            | err => simp
            | panic => exact absurd h (h1 _ a)
    constructor
    · intro h; exact absurd h h3
    · intro h; simp only [InCapacity] at hc; omega
  · rw [if_neg hc]
    simp only [InCapacity] at hc
    constructor
    · intro _; omega
    · intro _; rfl

/-- **C28**, acceptance.  Within capacity and without `Absent`, `finalize` succeeds exactly
* for an immediate acknowledgment: always;
* for version 2020: if something addressing-related was given, and some compression bit makes the
  table demand exactly the PAN ids given, except that a destination address without source and
  without any PAN id is refused although the table has an entry for it;
* otherwise: if a PAN id was given for each address given, and at least one address was. -/
theorem C28_accepts_iff (s : Start) (cs : List Call) (hc : InCapacity cs) (ha : NoAbsent cs) :
    (∃ f, build s cs = .ok f) ↔
    if IsImmAck s cs then True
    else if wantedVersion s cs = .v2020 then
      wantsAddressing cs = true ∧
      (∃ c, pans .v2020 (modeOf (lastOf Call.dst? cs)) (modeOf (lastOf Call.src? cs)) c =
        some ⟨(lastOf Call.dstPan? cs).isSome, (lastOf Call.srcPan? cs).isSome⟩) ∧
      ¬ ((lastOf Call.dst? cs).isSome ∧ lastOf Call.src? cs = none ∧ lastOf Call.dstPan? cs = none)
    else
      ((lastOf Call.dst? cs).isSome ∨ (lastOf Call.src? cs).isSome) ∧
      ((lastOf Call.dst? cs).isSome → (lastOf Call.dstPan? cs).isSome) ∧
      ((lastOf Call.src? cs).isSome → (lastOf Call.srcPan? cs).isSome) := by
  rw [build, history_eq, if_pos hc, bind_ok]
  have hd := last_dst_ne cs ha
  have hs := last_src_ne cs ha
  have e1 : (expected s cs).frameControl.frameVersion = wantedVersion s cs := rfl
  have e2 : (expected s cs).frameControl.frameType = s.type := rfl
  have e3 : (expected s cs).addressingFields = if wantsAddressing cs then some
    ⟨lastOf Call.dstPan? cs, lastOf Call.dst? cs, lastOf Call.srcPan? cs, lastOf Call.src? cs⟩
    else none := rfl
  have e4 : (expected s cs).frameControl.panIdCompression = false := rfl
  have e5 : (expected s cs).sequenceNumber = wantedSeq s cs := rfl
  have hb : ∀ x : Out (Bool × AddressingFieldsRepr),
      (∃ f, (do let p ← x; Out.ok (FrameBuilder.withAddr (expected s cs) p)) = .ok f) ↔
      ∃ p, x = .ok p := by
    intro x; cases x <;> simp
  have hwa : wantsAddressing cs = ((lastOf Call.dstPan? cs).isSome ||
    (lastOf Call.srcPan? cs).isSome || (lastOf Call.dst? cs).isSome || (lastOf Call.src? cs).isSome) :=
    rfl
  rw [FrameBuilder.finalize, e1, e2, e3, e4, e5]
  by_cases hv : wantedVersion s cs = .v2020
  · have hni : ¬ IsImmAck s cs := by simp [IsImmAck, hv]
    rw [if_pos hv, if_neg hni, if_pos hv]
    by_cases hw : wantsAddressing cs = true
    · rw [if_pos hw, hb]
      simp only [hw, true_and]
      clear e1 e2 e3 e4 e5 hb hwa hw
      generalize lastOf Call.dstPan? cs = dp at *
      generalize lastOf Call.srcPan? cs = sp at *
      generalize lastOf Call.dst? cs = d at *
      generalize lastOf Call.src? cs = sa at *
      rcases d with _ | (_ | d | d) <;> rcases sa with _ | (_ | sa | sa) <;>
        first
        | exact absurd rfl hd
        | exact absurd rfl hs
        | (rcases dp with _ | dp <;> rcases sp with _ | sp <;>
            simp [FrameBuilder.compress2020, modeOf, Address.mode, pans, pans2020])
    · rw [if_neg hw]; simp [hw]
  · have hv' : wantedVersion s cs = .v2006 := (version_cases s cs).resolve_left hv
    rw [if_neg hv]
    by_cases ht : s.type = .ack
    · have hia : IsImmAck s cs := ⟨ht, hv'⟩
      rw [if_pos ht, if_pos hia]
      have : (wantedSeq s cs).isNone = false := by
        unfold wantedSeq
        cases s with
        | immAck n => cases lastOf Call.seq? cs <;> rfl
        | ack => simp only [wantedVersion] at hv'; split at hv' <;> cases hv'
        | beacon => cases ht
        | enhancedBeacon => cases ht
        | data p => cases ht
      simp [this]
    · have hni : ¬ IsImmAck s cs := fun h => ht h.1
      rw [if_neg ht, if_neg hni, if_neg hv]
      by_cases hw : wantsAddressing cs = true
      · rw [if_pos hw, hb]
        clear e1 e2 e3 e4 e5 hb hwa hw
        generalize lastOf Call.dstPan? cs = dp at *
        generalize lastOf Call.srcPan? cs = sp at *
        generalize lastOf Call.dst? cs = d at *
        generalize lastOf Call.src? cs = sa at *
        rcases d with _ | d <;> rcases sa with _ | sa <;> rcases dp with _ | dp <;>
          rcases sp with _ | sp <;> simp [FrameBuilder.compress2006]
        split <;> simp
      · rw [if_neg hw]
        rw [hwa] at hw
        simp at hw
        simp [hw]

/-- Finding: a 2020 frame with both PAN ids and two extended addresses is refused, even when the
PAN ids are equal. -/
example : build .enhancedBeacon [.dstPanId 1, .srcPanId 1,
    .dstAddress (.extended ⟨[1, 2, 3, 4, 5, 6, 7, 8], rfl⟩),
    .srcAddress (.extended ⟨[1, 2, 3, 4, 5, 6, 7, 8], rfl⟩)] = .err := by decide

end Dot15d4.Props
