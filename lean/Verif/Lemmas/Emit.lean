import Verif.Props.Builder
import Verif.Props.Frames

/-! # Emitting a consistent frame -/

namespace Dot15d4
open Out Spec Props

/-- The octets of the addressing fields. -/
def addrOctets (f : FrameRepr) : Bytes :=
  match f.addressingFields with
  | none => []
  | some a => Spec.addressing a.dstPanId (a.dstAddress.getD .absent) a.srcPanId
      (a.srcAddress.getD .absent)

/-- The addressing fields as read back: a missing address is `Absent`. -/
def rereadAddr (f : FrameRepr) : Option AddressingFieldsRepr :=
  f.addressingFields.map fun a => ⟨a.dstPanId, some (a.dstAddress.getD .absent), a.srcPanId,
    some (a.srcAddress.getD .absent)⟩

theorem mode_getD (a : Option Address) : (a.getD .absent).mode = modeOf a := by cases a <;> rfl

theorem modeOf_ne (a : Option Address) : modeOf a ≠ .unknown := by
  cases a with
  | none => simp [modeOf]
  | some a => exact a.mode_ne_unknown

/-- The number of octets the addressing fields take for a table entry. -/
def fieldLen (r : FrameControlRepr) (p : Pans) : Nat :=
  (if p.dst then 2 else 0) + r.dstMode.size + (if p.src then 2 else 0) + r.srcMode.size

/-- The frame control field describes the frame, `n` octets of which follow the addressing
fields. -/
structure Coherent (f : FrameRepr) (n : Nat) : Prop where
  /-- The sequence number is suppressed exactly if there is none. -/
  seq : f.frameControl.seqNoSuppression = f.sequenceNumber.isNone
  /-- The element bit is set exactly if there are elements. -/
  ie : f.frameControl.iePresent = f.informationElements.isSome
  /-- The addressing modes exist. -/
  modes : f.frameControl.dstMode ≠ .unknown ∧ f.frameControl.srcMode ≠ .unknown
  /-- The modes are the kinds of the addresses, and the PAN ids are those the table demands. -/
  addr : ∀ a, f.addressingFields = some a →
    f.frameControl.dstMode = modeOf a.dstAddress ∧ f.frameControl.srcMode = modeOf a.srcAddress ∧
    pans f.frameControl.frameVersion f.frameControl.dstMode f.frameControl.srcMode
      f.frameControl.panIdCompression = some ⟨a.dstPanId.isSome, a.srcPanId.isSome⟩
  /-- Without addressing fields, the reader finds none either: the table has no entry, or there
  is no room for them. -/
  none : f.addressingFields = none → ∀ p,
    pans f.frameControl.frameVersion f.frameControl.dstMode f.frameControl.srcMode
      f.frameControl.panIdCompression = some p → n < fieldLen f.frameControl p
  /-- No security. -/
  clear : f.frameControl.securityEnabled = false

theorem _root_.Dot15d4.Props.Consistent.coherent {f : FrameRepr} (hc : Consistent f) (n : Nat) :
    Coherent f n where
  seq := hc.seq
  ie := hc.ie
  modes := ⟨by rw [hc.dst]; exact modeOf_ne _, by rw [hc.src]; exact modeOf_ne _⟩
  addr a ha := by
    have h1 := hc.dst
    have h2 := hc.src
    rw [ha] at h1 h2
    exact ⟨h1, h2, hc.pan a ha⟩
  none ha p hp := by
    obtain ⟨-, hv, -⟩ := hc.none ha
    have h1 := hc.dst
    have h2 := hc.src
    rw [ha] at h1 h2
    rw [hv, h1, h2] at hp
    revert hp
    cases f.frameControl.panIdCompression <;> simp [modeOf, pans, pans2006, hasAddr]
  clear := hc.clear.1

section
variable {f : FrameRepr} {n : Nat} (hc : Coherent f n) {o0 o1 : Byte} (ho : decodeFc o0 o1 = f.frameControl)
include hc ho

theorem seq_len : (if (decodeFc o0 o1).seqNoSuppression then 0 else 1) =
    f.sequenceNumber.toList.length := by
  rw [ho, hc.seq]
  cases f.sequenceNumber <;> rfl

theorem afterSeq_eq (r : Bytes) : afterSeq o0 o1 (f.sequenceNumber.toList ++ r) = r := by
  rw [afterSeq, ho, hc.seq]
  cases f.sequenceNumber <;> simp

/-- Reading the addressing fields of an emitted frame, whatever follows. -/
theorem read_addr (r : Bytes) (hr : r.length = n) : ∃ af,
    DataFrame.addressing (o0 :: o1 :: (f.sequenceNumber.toList ++ (addrOctets f ++ r))) = .ok af ∧
    mapOpt AddressingFieldsRepr.parse af = .ok (rereadAddr f) ∧
    DataFrame.addrEnd (o0 :: o1 :: (f.sequenceNumber.toList ++ (addrOctets f ++ r))) =
      .ok (2 + f.sequenceNumber.toList.length + (addrOctets f).length) := by
  have hd : (decodeFc o0 o1).dstMode ≠ .unknown := by rw [ho]; exact hc.modes.1
  have hs : (decodeFc o0 o1).srcMode ≠ .unknown := by rw [ho]; exact hc.modes.2
  have hadd := df_addressing o0 o1 (f.sequenceNumber.toList ++ (addrOctets f ++ r)) (by
    intro h
    have := seq_len hc ho
    rw [h] at this
    simp only [Bool.false_eq_true, if_false] at this
    rw [List.length_append]; omega)
  rw [afterSeq_eq hc ho] at hadd
  have hend : ∀ af n, DataFrame.addressing (o0 :: o1 :: (f.sequenceNumber.toList ++
      (addrOctets f ++ r))) = .ok af → (match af with
        | none => n = 0
        | some af => af.len = .ok n) →
      DataFrame.addrEnd (o0 :: o1 :: (f.sequenceNumber.toList ++ (addrOctets f ++ r))) =
      .ok (2 + f.sequenceNumber.toList.length + n) := by
    intro af n h1 h2
    simp only [DataFrame.addrEnd, df_frameControl, bind_ok, fc_sup, h1, seq_len hc ho]
    cases af with
    | none => simp only at h2; subst h2; rfl
    | some af => simp only at h2; simp only [h2, bind_ok]
  cases ha : f.addressingFields with
  | none =>
    have hn := C05_new_iff (addrOctets f ++ r) o0 o1 [] hd hs
    have e : addrOctets f = [] := by simp [addrOctets, ha]
    have hn : AddressingFields.new (addrOctets f ++ r) [o0, o1] = .err := by
      rw [hn]
      cases hp : fcPans o0 o1 with
      | none => rfl
      | some p =>
        have := hc.none ha p (by rw [← ho]; exact hp)
        rw [← ho] at this
        simp only [e, List.nil_append]
        rw [if_neg]
        simp only [fcAddrLen, fieldLen] at *
        omega
    simp only [hn, toOption] at hadd
    exact ⟨none, hadd, by simp [mapOpt, rereadAddr, ha], hend none _ hadd (by simp [e])⟩
  | some a =>
    obtain ⟨h1, h2, h3⟩ := hc.addr a ha
    have e : addrOctets f = Spec.addressing a.dstPanId (a.dstAddress.getD .absent) a.srcPanId
      (a.srcAddress.getD .absent) := by simp [addrOctets, ha]
    obtain ⟨b', af, g1, g2, g3, g4, g5⟩ := C06_roundtrip (addrOctets f ++ r) a.dstPanId a.srcPanId
      (a.dstAddress.getD .absent) (a.srcAddress.getD .absent) o0 o1 []
      (by rw [e, List.length_append]; omega) (by rw [mode_getD, ho, h1]) (by rw [mode_getD, ho, h2])
      (by rw [fcPans, ho]; exact h3)
    rw [C06_write _ _ _ _ _ (by rw [e, List.length_append]; omega), e, List.drop_left] at g1
    simp only [ok.injEq] at g1
    rw [e] at hadd hend ⊢
    rw [← g1] at g3
    simp only [g3, toOption] at hadd
    refine ⟨some af, hadd, by simp [mapOpt, g4, rereadAddr, ha], hend (some af) _ hadd ?_⟩
    simp only [g5, AddressingFieldsRepr.bufferLen, addressing_length, mode_getD]
    rw [ho, h1, h2, modeLen_eq (modeOf_ne _), modeLen_eq (modeOf_ne _)]
    rfl

theorem emit_seq (r : Bytes) :
    FrameRepr.ifSome DataFrame.setSequenceNumber f.sequenceNumber
      (o0 :: o1 :: (f.sequenceNumber.toList.map (fun _ => 0) ++ r)) =
    .ok (o0 :: o1 :: (f.sequenceNumber.toList ++ r)) := by
  cases hq : f.sequenceNumber with
  | none => rfl
  | some n =>
    have e : ∀ v : BitVec 16, v ||| (boolU16 false <<< 8) = v := by
      intro v; simp [boolU16]
    simp only [FrameRepr.ifSome, DataFrame.setSequenceNumber, modifyTo, Option.toList]
    rw [sliceTo_ok (by simp)]
    simp only [bind_ok, List.take_succ_cons, List.take_zero, FrameControl.setSeqNoSuppression,
      updU16_cons, e, u16bytes_le]
    rfl

theorem emit_addr (z r : Bytes) (hz : z.length = (addrOctets f).length) :
    FrameRepr.ifSome DataFrame.setAddressingFields f.addressingFields
      (o0 :: o1 :: (f.sequenceNumber.toList ++ (z ++ r))) =
    .ok (o0 :: o1 :: (f.sequenceNumber.toList ++ (addrOctets f ++ r))) := by
  cases ha : f.addressingFields with
  | none =>
    have e : addrOctets f = [] := by simp [addrOctets, ha]
    rw [e] at hz ⊢
    have : z = [] := List.length_eq_zero_iff.mp (by simpa using hz)
    rw [this]; rfl
  | some a =>
    have e : addrOctets f = Spec.addressing a.dstPanId (a.dstAddress.getD .absent) a.srcPanId
      (a.srcAddress.getD .absent) := by simp [addrOctets, ha]
    rw [e] at hz ⊢
    simp only [FrameRepr.ifSome, DataFrame.setAddressingFields, df_frameControl, bind_ok, fc_sup]
    rw [seq_len hc ho]
    have e2 : ∀ q : Bytes, o0 :: o1 :: (f.sequenceNumber.toList ++ q) =
        (o0 :: o1 :: f.sequenceNumber.toList) ++ q := fun _ => rfl
    have e3 : 2 + f.sequenceNumber.toList.length = (o0 :: o1 :: f.sequenceNumber.toList).length := by
      simp only [List.length_cons]; omega
    rw [e2, e3, modifyFrom_append _ _ _ _ (C06_write_none (z ++ r) a.dstPanId a.srcPanId
      a.dstAddress a.srcAddress (by rw [List.length_append]; omega)), List.drop_left' hz]
    rfl

end

end Dot15d4
