import Verif.Model.Fuzz
import Verif.Props.ParseExact
import Verif.Props.Reemit

/-!
# C31, C60: the two fuzz targets of the repository, and exactly when emitting panics

`frame` crashes exactly on the bad frames of `C31_panics_iff`; `repr` crashes on contradictory
`FrameRepr`s, exactly when three lengths disagree.
-/

namespace Dot15d4.Props
open Out Spec

/-! ## The target `frame` -/

/-- **C31**: the fuzz target `frame` crashes exactly on the bad frames of at most 127 octets. -/
theorem C31_fuzz_target (data : Bytes) : Fuzz.frameTarget data = .panic ↔
    data.length ≤ 127 ∧ DataFrame.new data = .ok data ∧ FrameBad data := by
  rw [Fuzz.frameTarget]
  by_cases hl : data.length > 127
  · rw [if_pos hl]
    simp only [reduceCtorEq, false_iff, not_and]
    intro h; omega
  · rw [if_neg hl]
    have hl' : data.length ≤ 127 := by omega
    rcases C09_new data with ⟨-, h'⟩ | ⟨-, h'⟩
    · have hp := C31_panics_iff data h'
      rw [h']
      simp only
      cases hq : FrameRepr.parse data <;> rw [hq] at hp <;> simp [← hp, hl']
    · rw [h']
      simp

/-- **C31**: if it does not crash, it keeps exactly the inputs of at most 127 octets for the corpus. -/
theorem C31_fuzz_corpus (data : Bytes) (k : Bool) :
    Fuzz.frameTarget data = .ok k → (k = true ↔ data.length ≤ 127) := by
  rw [Fuzz.frameTarget]
  by_cases hl : data.length > 127
  · rw [if_pos hl]
    intro h
    cases h
    simp; omega
  · rw [if_neg hl]
    have hl' : data.length ≤ 127 := by omega
    intro h
    repeat' split at h
    all_goals first
      | cases h; simp [hl']
      | cases h

/-- It does crash, on 14 octets. -/
example : Fuzz.frameTarget slotframeFrame = .panic ∧ Fuzz.frameTarget safeFrame = .ok true :=
  ⟨by decide +kernel, by decide +kernel⟩

/-! ## The target `repr` -/

/-- Three lengths of the addressing fields.  What is written: the PAN ids and addresses there are
(`addrOctets`).  What `buffer_len` reserves: the PAN ids there are, and addresses of the sizes the
frame control field announces. -/
def reservedLen (f : FrameRepr) : Nat :=
  match f.addressingFields with
  | none => 0
  | some a => (if a.dstPanId.isSome then 2 else 0) + f.frameControl.dstMode.size +
      (if a.srcPanId.isSome then 2 else 0) + f.frameControl.srcMode.size

/-- What the frame control field declares: the entry of the compression table, if there is one and
as many octets are left. -/
def declaredLen (fc : FrameControlRepr) (room : Nat) : Nat :=
  match pans fc.frameVersion fc.dstMode fc.srcMode fc.panIdCompression with
  | none => 0
  | some p => if fieldLen fc p ≤ room then fieldLen fc p else 0

/-- The octets after the frame control field in a buffer of `buffer_len()` octets. -/
def roomLen (f : FrameRepr) : Nat :=
  f.sequenceNumber.toList.length + reservedLen f + (f.payload.getD []).length

/-- The octets of the sequence number the frame control field declares. -/
def seqDeclared (f : FrameRepr) : Nat := if f.frameControl.seqNoSuppression then 0 else 1

/-- The frame can be emitted: the addressing fields fit behind the declared sequence number, and the
declared position of the payload is the reserved one. -/
def Emittable (f : FrameRepr) : Prop :=
  (f.addressingFields.isSome → seqDeclared f + (addrOctets f).length ≤ roomLen f) ∧
  (f.payload.isSome → seqDeclared f ≤ roomLen f ∧
    seqDeclared f + declaredLen f.frameControl (roomLen f - seqDeclared f) =
      f.sequenceNumber.toList.length + reservedLen f)

theorem modifyAt_short (b : Bytes) (o n : Nat) (g : Bytes → Out Bytes) (h : b.length < o + n) :
    modifyAt b o n g = .panic := by
  rw [modifyAt, modifyFrom]
  by_cases ho : o ≤ b.length
  · rw [sliceFrom_ok ho, bind_ok, modifyTo]
    have : ¬ n ≤ (b.drop o).length := by rw [List.length_drop]; omega
    rw [sliceTo, if_neg this]
    rfl
  · simp [sliceFrom, ho]

theorem optAddr_len (a : Address) : (optAddrBytes (some a)).length = a.len := by
  simp [optAddrBytes, addrBytes_length, Address.len_eq]

/-- Writing addressing fields that do not fit panics. -/
theorem writeFields_short (b : Bytes) (r : AddressingFieldsRepr)
    (h : b.length < (reprBytes r).length) : AddressingFields.writeFields b r = .panic := by
  obtain ⟨p, a, q, c⟩ := r
  simp only [reprBytes, List.length_append] at h
  unfold AddressingFields.writeFields
  by_cases h1 : (Spec.panBytes p).length ≤ b.length
  · have e1 := writePan_append [] b p h1
    simp only [List.nil_append, List.length_nil] at e1
    simp only [e1, bind_ok]
    by_cases h2 : (Spec.panBytes p).length + (optAddrBytes a).length ≤ b.length
    · rw [writeAddr_append (Spec.panBytes p) _ a (by simp; omega)]
      simp only [bind_ok]
      by_cases h3 : (Spec.panBytes p).length + (optAddrBytes a).length + (Spec.panBytes q).length ≤
          b.length
      · rw [writePan_append (Spec.panBytes p ++ optAddrBytes a) _ q (by simp; omega)]
        simp only [bind_ok]
        cases c with
        | none =>
          have : (optAddrBytes none).length = 0 := rfl
          omega
        | some c =>
          rw [optAddr_len] at h
          simp only [AddressingFields.writeAddr]
          rw [modifyAt_short]
          · rfl
          · simp; omega
      · cases q with
        | none =>
          have : (Spec.panBytes none).length = 0 := rfl
          omega
        | some q =>
          simp only [AddressingFields.writePan]
          rw [modifyAt_short]
          · rfl
          · have : (Spec.panBytes (some q)).length = 2 := rfl
            simp; omega
    · cases a with
      | none =>
        have : (optAddrBytes none).length = 0 := rfl
        omega
      | some a =>
        rw [optAddr_len] at h2
        simp only [AddressingFields.writeAddr]
        rw [modifyAt_short]
        · rfl
        · simp; omega
  · cases p with
    | none => simp [Spec.panBytes] at h1
    | some p =>
      simp only [AddressingFields.writePan]
      rw [modifyAt_short]
      · rfl
      · simp [Spec.panBytes] at h1; omega

/-- Where the reader finds the end of the addressing fields, whatever the octets are. -/
theorem addrEnd_any (o0 o1 : Byte) (l : Bytes) (hd : (decodeFc o0 o1).dstMode ≠ .unknown)
    (hs : (decodeFc o0 o1).srcMode ≠ .unknown)
    (hl : (if (decodeFc o0 o1).seqNoSuppression then 0 else 1) ≤ l.length) :
    DataFrame.addrEnd (o0 :: o1 :: l) =
      .ok (2 + (if (decodeFc o0 o1).seqNoSuppression then 0 else 1) +
        declaredLen (decodeFc o0 o1)
          (l.length - (if (decodeFc o0 o1).seqNoSuppression then 0 else 1))) := by
  have hadd := df_addressing o0 o1 l (by intro h; rw [h] at hl; simpa using hl)
  have hlen : (afterSeq o0 o1 l).length =
      l.length - (if (decodeFc o0 o1).seqNoSuppression then 0 else 1) := by
    rw [afterSeq]; split <;> simp
  have hn := C05_new_iff (afterSeq o0 o1 l) o0 o1 [] hd hs
  rw [hlen] at hn
  simp only [DataFrame.addrEnd, df_frameControl, bind_ok, fc_sup]
  generalize (if (decodeFc o0 o1).seqNoSuppression then 0 else 1) = s at *
  rw [hadd]
  rw [declaredLen]
  cases hp : fcPans o0 o1 with
  | none =>
    rw [hp] at hn
    rw [show pans _ _ _ _ = none from hp]
    simp [hn, toOption]
  | some p =>
    rw [hp] at hn
    rw [show pans _ _ _ _ = some p from hp]
    have e : fieldLen (decodeFc o0 o1) p = fcAddrLen o0 o1 p := rfl
    simp only [e]
    by_cases hle : fcAddrLen o0 o1 p ≤ l.length - s
    · simp only [hle, if_true] at hn ⊢
      obtain ⟨p', dp, d, sp, s', rest, k1, k2, k3, k4, k5, -, -, -, -, -, k6⟩ :=
        C05_layout (afterSeq o0 o1 l) o0 o1 [] hd hs _ hn
      rw [hp] at k1; cases k1
      have e2 : (Spec.addressing dp d sp s').length = fcAddrLen o0 o1 p := by
        rw [addressing_length, k2, k3, k4, k5]; rfl
      simp [hn, toOption, k6, e2]
    · simp only [hle, if_false] at hn ⊢
      simp [hn, toOption]

theorem setSeq_any (o0 o1 : Byte) (l : Bytes) (q : Option Byte) (h : q.toList.length ≤ l.length) :
    ∃ l', FrameRepr.ifSome DataFrame.setSequenceNumber q (o0 :: o1 :: l) = .ok (o0 :: o1 :: l') ∧
      l'.length = l.length := by
  cases q with
  | none => exact ⟨l, rfl, rfl⟩
  | some n =>
    cases l with
    | nil => simp at h
    | cons x l =>
      have e : ∀ v : BitVec 16, v ||| (boolU16 false <<< 8) = v := by
        intro v; simp [boolU16]
      refine ⟨n :: l, ?_, rfl⟩
      simp only [FrameRepr.ifSome, DataFrame.setSequenceNumber, modifyTo]
      rw [sliceTo_ok (by simp)]
      simp only [bind_ok, List.take_succ_cons, List.take_zero, FrameControl.setSeqNoSuppression,
        updU16_cons, e, u16bytes_le]
      rfl

theorem reprBytes_eq (f : FrameRepr) (a : AddressingFieldsRepr) (h : f.addressingFields = some a) :
    (reprBytes a).length = (addrOctets f).length := by
  obtain ⟨p, d, q, s⟩ := a
  simp only [addrOctets, h, reprBytes, Spec.addressing]
  cases d <;> cases s <;> simp [optAddrBytes, Spec.addrBytes]

theorem setAddr_any (f : FrameRepr) (o0 o1 : Byte) (l : Bytes) :
    (((f.addressingFields.isSome → (if (decodeFc o0 o1).seqNoSuppression then 0 else 1) +
        (addrOctets f).length ≤ l.length) ∧
      ∃ l', FrameRepr.ifSome DataFrame.setAddressingFields f.addressingFields (o0 :: o1 :: l) =
        .ok (o0 :: o1 :: l') ∧ l'.length = l.length) ∨
    (¬ (f.addressingFields.isSome → (if (decodeFc o0 o1).seqNoSuppression then 0 else 1) +
        (addrOctets f).length ≤ l.length) ∧
      FrameRepr.ifSome DataFrame.setAddressingFields f.addressingFields (o0 :: o1 :: l) =
        .panic)) := by
  cases ha : f.addressingFields with
  | none => exact .inl ⟨by simp, l, rfl, rfl⟩
  | some a =>
    have hr := reprBytes_eq f a ha
    simp only [Option.isSome_some, forall_const, FrameRepr.ifSome, DataFrame.setAddressingFields,
      df_frameControl, bind_ok, fc_sup, ← hr]
    generalize (if (decodeFc o0 o1).seqNoSuppression then 0 else 1) = s
    rw [modifyFrom]
    by_cases hs : s ≤ l.length
    · rw [sliceFrom_ok (by simp; omega), bind_ok]
      have e : (o0 :: o1 :: l).drop (2 + s) = l.drop s := by
        rw [Nat.add_comm]; rfl
      have e' : (o0 :: o1 :: l).take (2 + s) = o0 :: o1 :: l.take s := by
        rw [Nat.add_comm]; rfl
      rw [e, e']
      by_cases hle : s + (reprBytes a).length ≤ l.length
      · refine .inl ⟨hle, l.take s ++ (reprBytes a ++ (l.drop s).drop (reprBytes a).length), ?_, ?_⟩
        · rw [writeFields_eq _ _ (by rw [List.length_drop]; omega)]
          rfl
        · simp; omega
      · refine .inr ⟨hle, ?_⟩
        rw [writeFields_short _ _ (by rw [List.length_drop]; omega)]
        rfl
    · refine .inr ⟨by omega, ?_⟩
      have : ¬ 2 + s ≤ (o0 :: o1 :: l).length := by simp; omega
      rw [sliceFrom, if_neg this]
      rfl

theorem setPayload_any (q : Option Bytes) (o0 o1 : Byte) (l : Bytes)
    (hd : (decodeFc o0 o1).dstMode ≠ .unknown) (hs : (decodeFc o0 o1).srcMode ≠ .unknown)
    (hsec : (decodeFc o0 o1).securityEnabled = false) (hie : (decodeFc o0 o1).iePresent = false) :
    let s := if (decodeFc o0 o1).seqNoSuppression then 0 else 1
    (((q.isSome → s ≤ l.length ∧ s + declaredLen (decodeFc o0 o1) (l.length - s) +
        (q.getD []).length = l.length) ∧
      ∃ d, FrameRepr.ifSome DataFrame.setPayload q (o0 :: o1 :: l) = .ok d ∧
        d.length = l.length + 2) ∨
    (¬ (q.isSome → s ≤ l.length ∧ s + declaredLen (decodeFc o0 o1) (l.length - s) +
        (q.getD []).length = l.length) ∧
      FrameRepr.ifSome DataFrame.setPayload q (o0 :: o1 :: l) = .panic)) := by
  intro s
  cases q with
  | none => exact .inl ⟨by simp, _, rfl, by simp⟩
  | some p =>
    simp only [Option.isSome_some, forall_const, Option.getD_some, FrameRepr.ifSome]
    by_cases hl : s ≤ l.length
    · have he := addrEnd_any o0 o1 l hd hs hl
      simp only [DataFrame.setPayload, df_frameControl, bind_ok, he, fc_security, hsec, fc_ie, hie,
        Bool.false_eq_true, if_false]
      have hdl : declaredLen (decodeFc o0 o1) (l.length - s) ≤ l.length - s := by
        rw [declaredLen]
        split
        · omega
        · split <;> omega
      change (_ ∧ ∃ d, modifyFrom _ (2 + s + declaredLen _ (l.length - s)) _ = _ ∧ _) ∨
        (_ ∧ modifyFrom _ (2 + s + declaredLen _ (l.length - s)) _ = _)
      generalize declaredLen (decodeFc o0 o1) (l.length - s) = k at *
      rw [modifyFrom, sliceFrom_ok (by simp; omega), bind_ok, copyFromSlice]
      by_cases hk : s + k + p.length = l.length
      · rw [if_pos (by simp; omega)]
        exact .inl ⟨⟨hl, hk⟩, _, rfl, by simp; omega⟩
      · rw [if_neg (by simp; omega)]
        exact .inr ⟨fun h => hk h.2, rfl⟩
    · refine .inr ⟨fun h => hl h.1, ?_⟩
      have h0 : (decodeFc o0 o1).seqNoSuppression = false ∧ l = [] := by
        cases hq : (decodeFc o0 o1).seqNoSuppression <;> simp [s, hq] at hl ⊢
        exact hl
      obtain ⟨h0, rfl⟩ := h0
      simp only [DataFrame.setPayload, DataFrame.addrEnd, DataFrame.addressing, df_frameControl,
        bind_ok, fc_sup, h0, Bool.false_eq_true, if_false]
      rfl

/-- **C60**, exactly, for frames without information elements and without security: `buffer_len`
gives a length, and emitting into a buffer of that length fills it if the three lengths agree, and
panics if not.  (It never returns an error: `emit` has none to return.) -/
theorem C60_panics_iff (f : FrameRepr) (hi : f.informationElements = none)
    (hb : f.frameControl.iePresent = false) (hs : f.frameControl.securityEnabled = false)
    (hw : Writable f.frameControl) :
    ∃ n, f.bufferLen = .ok n ∧
      ((Emittable f ∧ ∃ d, f.emit (List.replicate n 0) = .ok d ∧ d.length = n) ∨
       (¬ Emittable f ∧ f.emit (List.replicate n 0) = .panic)) := by
  have hlen : f.bufferLen = .ok (roomLen f + 2) := by
    have ha : mapOpt (fun af => AddressingFieldsRepr.bufferLen af f.frameControl)
        f.addressingFields = .ok (f.addressingFields.map fun _ => reservedLen f) := by
      cases ha : f.addressingFields with
      | none => rfl
      | some a =>
        simp only [mapOpt, AddressingFieldsRepr.bufferLen, modeLen_eq hw.2.1, modeLen_eq hw.2.2,
          bind_ok, Option.map_some, reservedLen, ha]
    have hg : ((f.addressingFields.map fun _ => reservedLen f).getD 0) = reservedLen f := by
      cases ha : f.addressingFields with
      | none => simp [reservedLen, ha]
      | some a => rfl
    rw [FrameRepr.bufferLen, ha]
    simp only [bind_ok, hg, ok.injEq, hi, roomLen]
    have hq : (if f.sequenceNumber.isSome then 1 else 0) = f.sequenceNumber.toList.length := by
      cases f.sequenceNumber <;> rfl
    rw [hq]
    cases f.payload <;> simp <;> omega
  refine ⟨_, hlen, ?_⟩
  obtain ⟨o0, o1, h1, -, ho, -, -⟩ := C03_emit_parse f.frameControl hw []
  have hfc : ∀ l : Bytes, DataFrame.setFrameControl (0 :: 0 :: l) f.frameControl =
      .ok (o0 :: o1 :: l) := by
    intro l
    simp only [DataFrame.setFrameControl, modifyTo]
    rw [sliceTo_ok (by simp)]
    simp only [bind_ok, List.take_succ_cons, List.take_zero, List.drop_succ_cons, List.drop_zero, h1]
    rfl
  have hrep : List.replicate (roomLen f + 2) (0 : Byte) = 0 :: 0 :: List.replicate (roomLen f) 0 := rfl
  rw [FrameRepr.emit, hrep, hfc, bind_ok, hi]
  obtain ⟨l1, e1, k1⟩ := setSeq_any o0 o1 (List.replicate (roomLen f) 0) f.sequenceNumber (by
    rw [List.length_replicate, roomLen]; omega)
  rw [List.length_replicate] at k1
  rw [e1, bind_ok]
  have hsd : (if (decodeFc o0 o1).seqNoSuppression then 0 else 1) = seqDeclared f := by
    rw [ho]; rfl
  rcases setAddr_any f o0 o1 l1 with ⟨c1, l2, e2, k2⟩ | ⟨c1, e2⟩
  · rw [e2, bind_ok]
    simp only [FrameRepr.ifSome, bind_ok]
    have := setPayload_any f.payload o0 o1 l2 (by rw [ho]; exact hw.2.1) (by rw [ho]; exact hw.2.2)
      (by rw [ho]; exact hs) (by rw [ho]; exact hb)
    dsimp only at this
    rw [hsd] at this c1
    rw [k2, k1, ho] at this
    rw [k1] at c1
    have hem : Emittable f ↔ (f.payload.isSome → seqDeclared f ≤ roomLen f ∧
        seqDeclared f + declaredLen f.frameControl (roomLen f - seqDeclared f) +
          (f.payload.getD []).length = roomLen f) := by
      rw [Emittable, and_iff_right c1]
      refine imp_congr_right fun _ => and_congr_right fun _ => ?_
      simp only [roomLen]
      omega
    rw [← hem] at this
    exact this
  · rw [e2]
    refine .inr ⟨fun h => c1 ?_, rfl⟩
    rw [hsd, k1]
    exact h.1

/-- The example of `C60_emit_partial` is emittable; the frames of `C60_gaps` without elements and
security are not. -/
example : Emittable exampleFrame ∧
    ¬ Emittable { exampleFrame with frameControl :=
      { exampleFrame.frameControl with seqNoSuppression := true } } ∧
    ¬ Emittable { exampleFrame with
      frameControl := { exampleFrame.frameControl with srcMode := .absent } } ∧
    ¬ Emittable { exampleFrame with frameControl :=
      { exampleFrame.frameControl with panIdCompression := false } } := by
  refine ⟨⟨by decide, by decide⟩, ?_, ?_, ?_⟩ <;> (rintro ⟨h1, h2⟩; revert h1 h2; decide)

/-- `validate` never panics. -/
theorem validate_returns (f : FrameRepr) : Returns f.validate := by
  rw [FrameRepr.validate]
  split
  · simp
  · split
    · simp
    · refine returns_bind ?_ fun _ _ => by split <;> simp
      cases f.addressingFields with
      | none => simp [mapOpt]
      | some a =>
        refine returns_bind ?_ fun _ _ => by simp
        unfold AddressingFieldsRepr.validate
        dsimp only
        split <;> simp

/-- **C60** for the fuzz target `repr`: without elements and security it crashes exactly on the
frames `validate` accepts that are not emittable. -/
theorem C60_fuzz_target (f : FrameRepr) (hi : f.informationElements = none)
    (hb : f.frameControl.iePresent = false) (hs : f.frameControl.securityEnabled = false)
    (hw : Writable f.frameControl) :
    Fuzz.reprTarget f = .panic ↔ f.validate = .ok () ∧ ¬ Emittable f := by
  have hv := validate_returns f
  obtain ⟨n, hn, h⟩ := C60_panics_iff f hi hb hs hw
  rw [Fuzz.reprTarget]
  cases hq : f.validate with
  | panic => rw [hq] at hv; simp at hv
  | err => simp
  | ok u =>
    simp only [hn, bind_ok, bind_ok_panic, true_and]
    rcases h with ⟨h1, d, h2, -⟩ | ⟨h1, h2⟩ <;> rw [h2] <;> simp [h1]

end Dot15d4.Props
