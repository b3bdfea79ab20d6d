import Verif.Props.Frames

/-! # Accessors of enhanced acknowledgments never return `Err`; they return or panic -/

namespace Dot15d4
open Out

/-- The call does not return `Err`. -/
structure NoErr {α : Type} (o : Out α) : Prop where
  ne : o ≠ .err

namespace NoErr

theorem ok {α : Type} (a : α) : NoErr (.ok a) := ⟨by simp⟩
theorem panic {α : Type} : NoErr (.panic : Out α) := ⟨by simp⟩

theorem bind {α β : Type} {o : Out α} {f : α → Out β} (h : NoErr o) (hf : ∀ a, o = .ok a → NoErr (f a)) :
    NoErr (o >>= f) := by
  cases o with
  | ok a => exact hf a rfl
  | err => exact absurd rfl h.ne
  | panic => exact NoErr.panic

theorem idx (b : Bytes) (i : Nat) : NoErr (idx b i) := by unfold Dot15d4.idx; split <;> exact ⟨by simp⟩
theorem sliceFrom (b : Bytes) (i : Nat) : NoErr (sliceFrom b i) := by
  unfold Dot15d4.sliceFrom; split <;> exact ⟨by simp⟩
theorem sliceTo (b : Bytes) (i : Nat) : NoErr (sliceTo b i) := by
  unfold Dot15d4.sliceTo; split <;> exact ⟨by simp⟩
theorem slice (b : Bytes) (i j : Nat) : NoErr (slice b i j) := by
  unfold Dot15d4.slice; split <;> exact ⟨by simp⟩
theorem unwrap {α : Type} (o : Out α) : NoErr o.unwrap := by cases o <;> exact ⟨by simp⟩
theorem toOption {α : Type} (o : Out α) : NoErr o.toOption := by cases o <;> exact ⟨by simp⟩
theorem readU16 (b : Bytes) : NoErr (readU16 b) :=
  (sliceTo ..).bind fun _ _ => (idx ..).bind fun _ _ => (idx ..).bind fun _ _ => ok _
theorem field {α : Type} (b : Bytes) (f : BitVec 16 → α) :
    NoErr (Dot15d4.readU16 b >>= fun w => .ok (f w)) := (readU16 b).bind fun _ _ => ok _

theorem flags (af : AddressingFields) : NoErr af.flags :=
  (field ..).bind fun _ _ => (field ..).bind fun _ _ => (field ..).bind fun _ _ =>
    (field ..).bind fun _ _ => ok _

theorem dstPanId (af : AddressingFields) : NoErr af.dstPanId := by
  refine (flags af).bind fun f _ => ?_
  split
  · exact field ..
  · exact ok _

theorem srcPanId (af : AddressingFields) : NoErr af.srcPanId := by
  refine (flags af).bind fun f _ => ?_
  split
  · exact (sliceFrom ..).bind fun _ _ => field ..
  · exact ok _

theorem arr (n : Nat) (b : Bytes) : NoErr (arrOfSlice n b) := by
  unfold arrOfSlice; split <;> exact ⟨by simp⟩

theorem readAddress (b : Bytes) (o : Nat) (m : AddressingMode) :
    NoErr (AddressingFields.readAddress b o m) := by
  cases m <;> first | exact ok _ | exact (slice ..).bind fun _ _ => (arr ..).bind fun _ _ => ok _

theorem dstAddress (af : AddressingFields) : NoErr af.dstAddress := by
  refine (flags af).bind fun f _ => ?_
  cases f with
  | none => exact ok _
  | some f => exact readAddress ..

theorem srcAddress (af : AddressingFields) : NoErr af.srcAddress := by
  refine (flags af).bind fun f _ => ?_
  cases f with
  | none => exact ok _
  | some f => exact readAddress ..

theorem modeLen (m : AddressingMode) : NoErr (AddressingFields.modeLen m) := by
  cases m <;> exact ⟨by simp [AddressingFields.modeLen]⟩

theorem afLen (af : AddressingFields) : NoErr af.len :=
  (dstPanId af).bind fun _ _ => (field ..).bind fun _ _ => (modeLen _).bind fun _ _ =>
    (srcPanId af).bind fun _ _ => (field ..).bind fun _ _ => (modeLen _).bind fun _ _ => ok _

theorem ackFc (b : Bytes) : NoErr (EnhancedAck.frameControl b) :=
  (sliceTo ..).bind fun _ _ => unwrap _

theorem ackSeq (b : Bytes) : NoErr (EnhancedAck.sequenceNumber b) := by
  refine (ackFc b).bind fun fc _ => (field ..).bind fun v _ => ?_
  cases v
  · exact (idx ..).bind fun _ _ => ok _
  · exact ok _

theorem ackAddressing (b : Bytes) : NoErr (EnhancedAck.addressing b) := by
  refine (ackFc b).bind fun fc _ => (field ..).bind fun v _ => ?_
  cases v <;> exact (sliceFrom ..).bind fun _ _ => toOption _

theorem ackAddrEnd (b : Bytes) : NoErr (EnhancedAck.addrEnd b) := by
  refine (ackFc b).bind fun fc _ => (field ..).bind fun v _ => ?_
  refine (ackAddressing b).bind fun af _ => ?_
  cases af with
  | none => exact ok _
  | some af => exact (afLen af).bind fun _ _ => ok _

theorem ackAux (b : Bytes) : NoErr (EnhancedAck.auxSecHeader b) := by
  refine (ackAddrEnd b).bind fun _ _ => (ackFc b).bind fun fc _ => (field ..).bind fun v _ => ?_
  cases v
  · exact ok _
  · exact (sliceFrom ..).bind fun _ _ => ok _

theorem ackSecEnd (b : Bytes) : NoErr (EnhancedAck.secEnd b) := by
  refine (ackAddrEnd b).bind fun _ _ => (ackFc b).bind fun fc _ => (field ..).bind fun v _ => ?_
  cases v
  · exact ok _
  · refine (ackAux b).bind fun h _ => ?_
    cases h with
    | none => exact ok _
    | some h => exact ((idx ..).bind fun _ _ => ok _ : NoErr (AuxSecHeader.len h)).bind fun _ _ => ok _

theorem ackElements (b : Bytes) : NoErr (EnhancedAck.informationElements b) := by
  refine (ackSecEnd b).bind fun _ _ => (ackFc b).bind fun fc _ => (field ..).bind fun v _ => ?_
  cases v
  · exact ok _
  · exact (sliceFrom ..).bind fun _ _ => (unwrap _).bind fun _ _ => ok _

theorem durAt (d : Bytes) (i : Nat) : NoErr (TschTimeslot.durAt d i) :=
  (sliceFrom ..).bind fun _ _ => (sliceTo ..).bind fun _ _ => (idx ..).bind fun _ _ =>
    (idx ..).bind fun _ _ => ok _

theorem dur24At (d : Bytes) (i : Nat) : NoErr (TschTimeslot.dur24At d i) :=
  (sliceFrom ..).bind fun _ _ => (sliceTo ..).bind fun _ _ => (idx ..).bind fun _ _ =>
    (idx ..).bind fun _ _ => (idx ..).bind fun _ _ => ok _

theorem timings (d : Bytes) : NoErr (TschTimeslot.timeslotTimings d) := by
  refine (idx ..).bind fun i _ => ?_
  split
  · exact ok _
  · refine (durAt ..).bind fun _ _ => (durAt ..).bind fun _ _ => (durAt ..).bind fun _ _ =>
      (durAt ..).bind fun _ _ => (durAt ..).bind fun _ _ => (durAt ..).bind fun _ _ =>
      (durAt ..).bind fun _ _ => (durAt ..).bind fun _ _ => (durAt ..).bind fun _ _ =>
      (durAt ..).bind fun _ _ => ?_
    split
    · exact (durAt ..).bind fun _ _ => (durAt ..).bind fun _ _ => ok _
    · exact (dur24At ..).bind fun _ _ => (dur24At ..).bind fun _ _ => ok _

end NoErr

/-- The information elements of an enhanced acknowledgment passed `InformationElements::new`. -/
theorem ack_elements_new {b : Bytes} {ie : InformationElements}
    (h : EnhancedAck.informationElements b = .ok (some ie)) :
    ∃ s, InformationElements.new s = .ok ie := by
  obtain ⟨o, -, h⟩ := bind_eq_ok.mp h
  obtain ⟨fc, -, h⟩ := bind_eq_ok.mp h
  obtain ⟨v, -, h⟩ := bind_eq_ok.mp h
  cases v
  · cases h
  · obtain ⟨s, -, h⟩ := bind_eq_ok.mp h
    obtain ⟨ie', h', h⟩ := bind_eq_ok.mp h
    cases h
    refine ⟨s, ?_⟩
    cases hn : InformationElements.new s <;> rw [hn] at h' <;> simp at h'
    rw [h']

theorem NoErr.ackPayload (b : Bytes) : NoErr (EnhancedAck.payload b) := by
  refine (ackSecEnd b).bind fun _ _ => (ackFc b).bind fun fc _ => ?_
  refine NoErr.bind ?_ fun _ _ => (sliceFrom ..).bind fun _ _ => ok _
  refine (field ..).bind fun v _ => ?_
  cases v
  · exact ok _
  · refine (ackElements b).bind fun ie h => ?_
    cases ie with
    | none => exact ok _
    | some ie =>
      obtain ⟨s, hs⟩ := ack_elements_new h
      obtain ⟨-, _, _, _, _, _, _, _, -, -, -, -, -, -, -, -, -, -, hl, -⟩ := Props.C15_partition _ _ hs
      show NoErr (InformationElements.len ie >>= _)
      rw [hl]
      exact ok _

end Dot15d4
