import Verif.Spec.FrameControl
/-! Helper lemmas on frame control words. -/
namespace Dot15d4
open Out FrameControl

theorem bit_test (w : BitVec 16) (k : Nat) : ((w >>> k) &&& 1#16 == 1#16) = w.getLsbD k := by
  have h : ((w >>> k) &&& 1#16) = BitVec.setWidth 16 (BitVec.ofBool (w.getLsbD k)) := by
    rw [BitVec.and_one_eq_setWidth_ofBool_getLsbD]; simp
  show ((w >>> k) &&& 1#16 == 1#16) = _
  rw [h]; cases w.getLsbD k <;> decide

theorem wSecurity_bit (w) : wSecurity w = w.getLsbD 3 := bit_test w 3
theorem wPending_bit (w) : wPending w = w.getLsbD 4 := bit_test w 4
theorem wAck_bit (w) : wAck w = w.getLsbD 5 := bit_test w 5
theorem wPanComp_bit (w) : wPanComp w = w.getLsbD 6 := bit_test w 6
theorem wSeqSup_bit (w) : wSeqSup w = w.getLsbD 8 := bit_test w 8
theorem wIe_bit (w) : wIe w = w.getLsbD 9 := bit_test w 9

/-- Two-bit code from its bits. -/
def code2 (b0 b1 : Bool) : Byte := (if b0 then 1 else 0) ||| (if b1 then 2 else 0)
/-- Three-bit code from its bits. -/
def code3 (b0 b1 b2 : Bool) : Byte := code2 b0 b1 ||| (if b2 then 4 else 0)

theorem field2 (w : BitVec 16) (k : Nat) :
    ((w >>> k) &&& 3#16).setWidth 8 = code2 (w.getLsbD k) (w.getLsbD (k+1)) := by
  apply BitVec.eq_of_getLsbD_eq
  intro i hi
  have h3 : (3#16).getLsbD i = decide (i < 2) := by
    have : i = 0 ∨ i = 1 ∨ i = 2 ∨ i = 3 ∨ i = 4 ∨ i = 5 ∨ i = 6 ∨ i = 7 := by omega
    rcases this with h|h|h|h|h|h|h|h <;> subst h <;> rfl
  simp only [BitVec.getLsbD_setWidth, BitVec.getLsbD_and, BitVec.getLsbD_ushiftRight, h3, hi]
  have : i = 0 ∨ i = 1 ∨ i = 2 ∨ i = 3 ∨ i = 4 ∨ i = 5 ∨ i = 6 ∨ i = 7 := by omega
  generalize h0 : w.getLsbD k = x
  generalize h1 : w.getLsbD (k+1) = y
  rcases this with h|h|h|h|h|h|h|h <;> subst h <;> simp [h0, h1, -BitVec.getLsbD_eq_getElem] <;>
    cases x <;> cases y <;> decide

theorem field3 (w : BitVec 16) :
    (w &&& 7#16).setWidth 8 = code3 (w.getLsbD 0) (w.getLsbD 1) (w.getLsbD 2) := by
  apply BitVec.eq_of_getLsbD_eq
  intro i hi
  have h3 : (7#16).getLsbD i = decide (i < 3) := by
    have : i = 0 ∨ i = 1 ∨ i = 2 ∨ i = 3 ∨ i = 4 ∨ i = 5 ∨ i = 6 ∨ i = 7 := by omega
    rcases this with h|h|h|h|h|h|h|h <;> subst h <;> rfl
  simp only [BitVec.getLsbD_setWidth, BitVec.getLsbD_and, h3, hi]
  have : i = 0 ∨ i = 1 ∨ i = 2 ∨ i = 3 ∨ i = 4 ∨ i = 5 ∨ i = 6 ∨ i = 7 := by omega
  generalize h0 : w.getLsbD 0 = x
  generalize h1 : w.getLsbD 1 = y
  generalize h2 : w.getLsbD 2 = z
  rcases this with h|h|h|h|h|h|h|h <;> subst h <;> simp [h0, h1, h2, -BitVec.getLsbD_eq_getElem] <;>
    cases x <;> cases y <;> cases z <;> decide

theorem wFrameType_bits (w) :
    wFrameType w = .ofU8 (code3 (w.getLsbD 0) (w.getLsbD 1) (w.getLsbD 2)) := by
  rw [← field3]; rfl
theorem wDstMode_bits (w) : wDstMode w = .ofU8 (code2 (w.getLsbD 10) (w.getLsbD 11)) := by
  rw [← field2]; rfl
theorem wSrcMode_bits (w) : wSrcMode w = .ofU8 (code2 (w.getLsbD 14) (w.getLsbD 15)) := by
  rw [← field2]; rfl
theorem wVersion_bits (w) : wVersion w = .ofU8 (code2 (w.getLsbD 12) (w.getLsbD 13)) := by
  rw [← field2]; rfl

theorem getLsbD_orBool (w : BitVec 16) (v : Bool) (k i : Nat) (hk : k < 16) :
    (w ||| (boolU16 v <<< k)).getLsbD i = (w.getLsbD i || (v && decide (i = k))) := by
  rw [BitVec.getLsbD_or, BitVec.getLsbD_shiftLeft]
  have h1 : (boolU16 v).getLsbD (i - k) = (v && decide (i - k = 0)) := by
    unfold boolU16
    cases v
    · simp
    · simp only [if_true, Bool.true_and]
      show (1#16).getLsbD _ = _
      rw [BitVec.getLsbD_one]; simp
  rw [h1]
  congr 1
  by_cases h : i = k
  · subst h; simp [hk]
  · by_cases h' : i < k
    · simp [h, h']
    · have : ¬ (i - k = 0) := by omega
      simp [h, this]

theorem getLsbD_setField2 (w v : BitVec 16) (k i : Nat) (hk : k + 1 < 16) :
    ((w &&& ~~~(3#16 <<< k)) ||| ((v &&& 3#16) <<< k)).getLsbD i =
      if i = k then v.getLsbD 0 else if i = k + 1 then v.getLsbD 1 else w.getLsbD i := by
  have h3 : ∀ j, (3#16).getLsbD j = decide (j < 2) := by
    intro j
    by_cases hj : j < 16
    · have := (by decide : ∀ j : Fin 16, (3#16).getLsbD j = decide ((j : Nat) < 2)) ⟨j, hj⟩
      exact this
    · rw [BitVec.getLsbD_of_ge _ _ (by omega)]; simp; omega
  simp only [BitVec.getLsbD_or, BitVec.getLsbD_and, BitVec.getLsbD_not, BitVec.getLsbD_shiftLeft,
    h3]
  by_cases hi : i < 16
  · by_cases h : i = k
    · subst h; simp [hi]
    · by_cases h' : i = k + 1
      · subst h'; simp [hi, show ¬ (k + 1 < k) by omega]
      · by_cases h'' : i < k
        · simp [h, h', h'', hi]
        · have : ¬ i - k < 2 := by omega
          simp [h, h', hi, this]
  · have : w.getLsbD i = false := BitVec.getLsbD_of_ge _ _ (by omega)
    have h1 : i ≠ k := by omega
    have h2 : i ≠ k + 1 := by omega
    simp [this, hi, h1, h2]

theorem getLsbD_setField3 (w v : BitVec 16) (i : Nat) :
    ((w &&& ~~~7#16) ||| (v &&& 7#16)).getLsbD i =
      if i < 3 then v.getLsbD i else w.getLsbD i := by
  have h3 : ∀ j, (7#16).getLsbD j = decide (j < 3) := by
    intro j
    by_cases hj : j < 16
    · have := (by decide : ∀ j : Fin 16, (7#16).getLsbD j = decide ((j : Nat) < 3)) ⟨j, hj⟩
      exact this
    · rw [BitVec.getLsbD_of_ge _ _ (by omega)]; simp; omega
  simp only [BitVec.getLsbD_or, BitVec.getLsbD_and, BitVec.getLsbD_not, h3]
  by_cases hi : i < 16
  · by_cases h : i < 3 <;> simp [h, hi]
  · have : w.getLsbD i = false := BitVec.getLsbD_of_ge _ _ (by omega)
    have h1 : ¬ i < 3 := by omega
    simp [this, hi, h1]

/-- Decoded form of a word. -/
def wRepr (w : BitVec 16) : FrameControlRepr :=
  { frameType := wFrameType w, securityEnabled := wSecurity w, framePending := wPending w,
    ackRequest := wAck w, panIdCompression := wPanComp w, seqNoSuppression := wSeqSup w,
    iePresent := wIe w, dstMode := wDstMode w, srcMode := wSrcMode w, frameVersion := wVersion w }

theorem FrameControlRepr.parse_cons (b0 b1 : Byte) (l : Bytes) :
    FrameControlRepr.parse (b0 :: b1 :: l) = .ok (wRepr (u16le b0 b1)) := by
  simp [FrameControlRepr.parse, FrameControl.frameType, FrameControl.securityEnabled,
    FrameControl.framePending, FrameControl.ackRequest, FrameControl.panIdCompression,
    FrameControl.seqNoSuppression, FrameControl.iePresent, FrameControl.dstMode,
    FrameControl.srcMode, FrameControl.frameVersion, wRepr]

/-! Spec bits are word bits. -/

theorem fcBit_eq (o0 o1 : Byte) (i : Nat) : Spec.fcBit o0 o1 i = (u16le o0 o1).getLsbD i := by
  rw [getLsbD_u16le]
  unfold Spec.fcBit BitVec.getLsbD
  split <;> rw [Nat.testBit_eq_decide_div_mod_eq]

theorem fcField_bits2 (o0 o1 : Byte) (lo : Nat) :
    Spec.fcField o0 o1 lo 2 =
      (code2 ((u16le o0 o1).getLsbD lo) ((u16le o0 o1).getLsbD (lo+1))).toNat := by
  unfold Spec.fcField
  rw [← u16le_toNat]
  have e : (code2 ((u16le o0 o1).getLsbD lo) ((u16le o0 o1).getLsbD (lo+1)))
      = ((u16le o0 o1 >>> lo) &&& 3#16).setWidth 8 := (field2 _ _).symm
  rw [e]
  simp only [BitVec.toNat_setWidth, BitVec.toNat_and, BitVec.toNat_ushiftRight,
    Nat.shiftRight_eq_div_pow]
  rw [show (3#16).toNat = 2 ^ 2 - 1 from rfl, Nat.and_two_pow_sub_one_eq_mod]
  omega

theorem fcField_bits3 (o0 o1 : Byte) :
    Spec.fcField o0 o1 0 3 = (code3 ((u16le o0 o1).getLsbD 0) ((u16le o0 o1).getLsbD 1)
      ((u16le o0 o1).getLsbD 2)).toNat := by
  unfold Spec.fcField
  rw [← u16le_toNat, ← field3]
  simp only [BitVec.toNat_setWidth, BitVec.toNat_and]
  rw [show (7#16).toNat = 2 ^ 3 - 1 from rfl, Nat.and_two_pow_sub_one_eq_mod]
  omega

theorem ofU8_type (v : Byte) : FrameType.ofU8 v = Spec.frameTypeCode v.toNat := by
  revert v; decide +kernel
theorem ofU8_mode (v : Byte) : AddressingMode.ofU8 v = Spec.modeCode v.toNat := by
  revert v; decide +kernel
theorem ofU8_version (v : Byte) : FrameVersion.ofU8 v = Spec.versionCode v.toNat := by
  revert v; decide +kernel

theorem wRepr_eq_spec (b0 b1 : Byte) : wRepr (u16le b0 b1) = Spec.decodeFc b0 b1 := by
  simp only [wRepr, Spec.decodeFc, wFrameType_bits, wSecurity_bit, wPending_bit, wAck_bit,
    wPanComp_bit, wSeqSup_bit, wIe_bit, wDstMode_bits, wSrcMode_bits, wVersion_bits, fcBit_eq,
    fcField_bits2, fcField_bits3, ofU8_type, ofU8_mode, ofU8_version]

theorem type_bits {t : FrameType} (h : t ≠ .unknown) :
    FrameType.ofU8 (code3 (t.toU8.getLsbD 0) (t.toU8.getLsbD 1) (t.toU8.getLsbD 2)) = t := by
  cases t <;> first | contradiction | rfl
theorem mode_bits {m : AddressingMode} (h : m ≠ .unknown) :
    AddressingMode.ofU8 (code2 (m.toU8.getLsbD 0) (m.toU8.getLsbD 1)) = m := by
  cases m <;> first | contradiction | rfl
theorem version_bits (v : FrameVersion) :
    FrameVersion.ofU8 (code2 (v.toU8.getLsbD 0) (v.toU8.getLsbD 1)) = v := by
  cases v <;> rfl

/-- The word written by `FrameControlRepr::emit` over the old word. -/
def emitWord (r : FrameControlRepr) (w : BitVec 16) : BitVec 16 :=
  let w := (w &&& ~~~0b111#16) ||| (r.frameType.toU8.setWidth 16 &&& 0b111#16)
  let w := w ||| (boolU16 r.securityEnabled <<< 3)
  let w := w ||| (boolU16 r.framePending <<< 4)
  let w := w ||| (boolU16 r.ackRequest <<< 5)
  let w := w ||| (boolU16 r.panIdCompression <<< 6)
  let w := w ||| (boolU16 r.seqNoSuppression <<< 8)
  let w := w ||| (boolU16 r.iePresent <<< 9)
  let w := (w &&& ~~~(0b11#16 <<< 10)) ||| ((r.dstMode.toU8.setWidth 16 &&& 0b11#16) <<< 10)
  let w := (w &&& ~~~(0b11#16 <<< 14)) ||| ((r.srcMode.toU8.setWidth 16 &&& 0b11#16) <<< 14)
  (w &&& ~~~(0b11#16 <<< 12)) ||| ((r.frameVersion.toU8.setWidth 16 &&& 0b11#16) <<< 12)

theorem FrameControlRepr.emit_cons (r : FrameControlRepr) (b0 b1 : Byte) (l : Bytes) :
    FrameControlRepr.emit r (b0 :: b1 :: l) = .ok (u16bytes (emitWord r (u16le b0 b1)) ++ l) := by
  simp only [FrameControlRepr.emit, setFrameType, setSecurityEnabled, setFramePending,
        setAckRequest, setPanIdCompression, setSeqNoSuppression, setIePresent, setDstMode,
        setSrcMode, setFrameVersion, updU16_cons, bind_ok, u16bytes, List.cons_append,
        List.nil_append, u16le_bytes, emitWord]

theorem emitWord_bits (r : FrameControlRepr) (w : BitVec 16) (i : Nat) :
    (emitWord r w).getLsbD i =
      if i < 3 then r.frameType.toU8.getLsbD i
      else if i = 3 then w.getLsbD 3 || r.securityEnabled
      else if i = 4 then w.getLsbD 4 || r.framePending
      else if i = 5 then w.getLsbD 5 || r.ackRequest
      else if i = 6 then w.getLsbD 6 || r.panIdCompression
      else if i = 7 then w.getLsbD 7
      else if i = 8 then w.getLsbD 8 || r.seqNoSuppression
      else if i = 9 then w.getLsbD 9 || r.iePresent
      else if i = 10 then r.dstMode.toU8.getLsbD 0
      else if i = 11 then r.dstMode.toU8.getLsbD 1
      else if i = 12 then r.frameVersion.toU8.getLsbD 0
      else if i = 13 then r.frameVersion.toU8.getLsbD 1
      else if i = 14 then r.srcMode.toU8.getLsbD 0
      else if i = 15 then r.srcMode.toU8.getLsbD 1
      else false := by
  by_cases hi : i < 16
  · have : i = 0 ∨ i = 1 ∨ i = 2 ∨ i = 3 ∨ i = 4 ∨ i = 5 ∨ i = 6 ∨ i = 7 ∨ i = 8 ∨ i = 9 ∨
      i = 10 ∨ i = 11 ∨ i = 12 ∨ i = 13 ∨ i = 14 ∨ i = 15 := by omega
    simp only [emitWord, getLsbD_setField2 _ _ 12 _ (by decide : 12 + 1 < 16),
        getLsbD_setField2 _ _ 14 _ (by decide : 14 + 1 < 16),
        getLsbD_setField2 _ _ 10 _ (by decide : 10 + 1 < 16),
        getLsbD_orBool _ _ 3 _ (by decide : 3 < 16), getLsbD_orBool _ _ 4 _ (by decide : 4 < 16),
        getLsbD_orBool _ _ 5 _ (by decide : 5 < 16), getLsbD_orBool _ _ 6 _ (by decide : 6 < 16),
        getLsbD_orBool _ _ 8 _ (by decide : 8 < 16), getLsbD_orBool _ _ 9 _ (by decide : 9 < 16),
        getLsbD_setField3, BitVec.getLsbD_setWidth]
    rcases this with h|h|h|h|h|h|h|h|h|h|h|h|h|h|h|h <;> subst h <;>
      simp [-BitVec.getLsbD_eq_getElem]
  · have h1 : (emitWord r w).getLsbD i = false := BitVec.getLsbD_of_ge _ _ (by omega)
    rw [h1]
    repeat rw [if_neg (by omega)]

theorem wRepr_emitWord (r : FrameControlRepr) (hw : Spec.Writable r) : wRepr (emitWord r 0) = r := by
  obtain ⟨t, s, p, a, c, q, i, dm, sm, v⟩ := r
  obtain ⟨h1, h2, h3⟩ := hw
  simp only at h1 h2 h3
  simp [-BitVec.getLsbD_eq_getElem, wRepr, wFrameType_bits, wSecurity_bit, wPending_bit,
        wAck_bit, wPanComp_bit, wSeqSup_bit, wIe_bit, wDstMode_bits, wSrcMode_bits,
        wVersion_bits, emitWord_bits, type_bits h1, mode_bits h2, mode_bits h3, version_bits]

end Dot15d4
