import Verif.Lemmas.FrameControl
/-! # C01-C03: the Frame Control field -/
namespace Dot15d4.Props
open Dot15d4 Out FrameControl Spec

/-- **C01**.  For every two octets (and whatever follows) every getter returns the field the
standard defines. -/
theorem C01_getters_decode (o0 o1 : Byte) (rest : Bytes) :
    FrameControl.frameType (o0 :: o1 :: rest) = .ok (frameTypeCode (fcField o0 o1 0 3)) ∧
    FrameControl.securityEnabled (o0 :: o1 :: rest) = .ok (fcBit o0 o1 3) ∧
    FrameControl.framePending (o0 :: o1 :: rest) = .ok (fcBit o0 o1 4) ∧
    FrameControl.ackRequest (o0 :: o1 :: rest) = .ok (fcBit o0 o1 5) ∧
    FrameControl.panIdCompression (o0 :: o1 :: rest) = .ok (fcBit o0 o1 6) ∧
    FrameControl.seqNoSuppression (o0 :: o1 :: rest) = .ok (fcBit o0 o1 8) ∧
    FrameControl.iePresent (o0 :: o1 :: rest) = .ok (fcBit o0 o1 9) ∧
    FrameControl.dstMode (o0 :: o1 :: rest) = .ok (modeCode (fcField o0 o1 10 2)) ∧
    FrameControl.frameVersion (o0 :: o1 :: rest) = .ok (versionCode (fcField o0 o1 12 2)) ∧
    FrameControl.srcMode (o0 :: o1 :: rest) = .ok (modeCode (fcField o0 o1 14 2)) := by
  have h := wRepr_eq_spec o0 o1
  simp only [wRepr, decodeFc, FrameControlRepr.mk.injEq] at h
  obtain ⟨h1, h2, h3, h4, h5, h6, h7, h8, h9, h10⟩ := h
  simp [FrameControl.frameType, FrameControl.securityEnabled,
    FrameControl.framePending, FrameControl.ackRequest, FrameControl.panIdCompression,
    FrameControl.seqNoSuppression, FrameControl.iePresent, FrameControl.dstMode,
    FrameControl.srcMode, FrameControl.frameVersion, h1, h2, h3, h4, h5, h6, h7, h8, h9, h10]

/-- **C01**, boundary: the checked constructor accepts exactly the buffers on which the getters
are defined; on shorter buffers (only reachable through `new_unchecked`) they panic. -/
theorem C01_new_iff (b : Bytes) :
    (FrameControl.new b = .ok b ↔ 2 ≤ b.length) ∧ (FrameControl.new b = .err ↔ b.length < 2) ∧
    ((FrameControl.frameType b).Returns ↔ 2 ≤ b.length) ∧
    ((FrameControl.securityEnabled b).Returns ↔ 2 ≤ b.length) ∧
    ((FrameControl.framePending b).Returns ↔ 2 ≤ b.length) ∧
    ((FrameControl.ackRequest b).Returns ↔ 2 ≤ b.length) ∧
    ((FrameControl.panIdCompression b).Returns ↔ 2 ≤ b.length) ∧
    ((FrameControl.seqNoSuppression b).Returns ↔ 2 ≤ b.length) ∧
    ((FrameControl.iePresent b).Returns ↔ 2 ≤ b.length) ∧
    ((FrameControl.dstMode b).Returns ↔ 2 ≤ b.length) ∧
    ((FrameControl.frameVersion b).Returns ↔ 2 ≤ b.length) ∧
    ((FrameControl.srcMode b).Returns ↔ 2 ≤ b.length) := by
  refine ⟨?_, ?_, ?_⟩
  · unfold FrameControl.new; split <;> simp <;> omega
  · unfold FrameControl.new; split <;> simp <;> omega
  · by_cases h : 2 ≤ b.length
    · obtain ⟨b0, b1, l, rfl⟩ := exists_cons2 h
      simp [FrameControl.frameType, FrameControl.securityEnabled, FrameControl.framePending,
        FrameControl.ackRequest, FrameControl.panIdCompression, FrameControl.seqNoSuppression,
        FrameControl.iePresent, FrameControl.dstMode, FrameControl.srcMode,
        FrameControl.frameVersion]
    · simp [FrameControl.frameType, FrameControl.securityEnabled, FrameControl.framePending,
        FrameControl.ackRequest, FrameControl.panIdCompression, FrameControl.seqNoSuppression,
        FrameControl.iePresent, FrameControl.dstMode, FrameControl.srcMode,
        FrameControl.frameVersion, readU16_short (Nat.lt_of_not_le h), h]

/-- The field decoding loses nothing but bit 7: two control words with the same decoded fields
and the same reserved bit are equal (so "all other fields unchanged" means "all other bits"). -/
theorem C01_decode_injective (o0 o1 p0 p1 : Byte) (h : decodeFc o0 o1 = decodeFc p0 p1)
    (h7 : fcBit o0 o1 7 = fcBit p0 p1 7) : o0 = p0 ∧ o1 = p1 := by
  rw [← wRepr_eq_spec, ← wRepr_eq_spec] at h
  simp only [wRepr, FrameControlRepr.mk.injEq, wFrameType_bits, wSecurity_bit, wPending_bit,
    wAck_bit, wPanComp_bit, wSeqSup_bit, wIe_bit, wDstMode_bits, wSrcMode_bits,
    wVersion_bits] at h
  rw [fcBit_eq, fcBit_eq] at h7
  obtain ⟨h1, h2, h3, h4, h5, h6, h8, h9, h10, h11⟩ := h
  have inj3 : ∀ a b c a' b' c' : Bool, FrameType.ofU8 (code3 a b c) = FrameType.ofU8 (code3 a' b' c')
      → a = a' ∧ b = b' ∧ c = c' := by decide
  have inj2 : ∀ a b a' b' : Bool, AddressingMode.ofU8 (code2 a b) = .ofU8 (code2 a' b')
      → a = a' ∧ b = b' := by decide
  have inj2' : ∀ a b a' b' : Bool, FrameVersion.ofU8 (code2 a b) = .ofU8 (code2 a' b')
      → a = a' ∧ b = b' := by decide
  obtain ⟨k0, k1, k2⟩ := inj3 _ _ _ _ _ _ h1
  obtain ⟨k10, k11⟩ := inj2 _ _ _ _ h9
  obtain ⟨k14, k15⟩ := inj2 _ _ _ _ h10
  obtain ⟨k12, k13⟩ := inj2' _ _ _ _ h11
  have hw : u16le o0 o1 = u16le p0 p1 := by
    apply BitVec.eq_of_getLsbD_eq
    intro i hi
    have : i = 0 ∨ i = 1 ∨ i = 2 ∨ i = 3 ∨ i = 4 ∨ i = 5 ∨ i = 6 ∨ i = 7 ∨ i = 8 ∨ i = 9 ∨
      i = 10 ∨ i = 11 ∨ i = 12 ∨ i = 13 ∨ i = 14 ∨ i = 15 := by omega
    rcases this with h|h|h|h|h|h|h|h|h|h|h|h|h|h|h|h <;> subst h <;> assumption
  have := congrArg u16bytes hw
  rw [u16bytes_le, u16bytes_le] at this
  simpa using this

example : decodeFc 0x41 0x88 ≠ decodeFc 0x41 0x98 :=
  fun h => absurd (C01_decode_injective _ _ _ _ h (by decide)).2 (by decide)

private theorem upd_word (f : BitVec 16 → BitVec 16) (upd) (o0 o1 : Byte) (rest : Bytes)
    (h : wRepr (f (u16le o0 o1)) = upd (wRepr (u16le o0 o1)))
    (h7 : (f (u16le o0 o1)).getLsbD 7 = (u16le o0 o1).getLsbD 7) :
    UpdatesOnly (fun b => updU16 b f) upd o0 o1 rest := by
  refine ⟨(f (u16le o0 o1)).setWidth 8, ((f (u16le o0 o1)) >>> 8).setWidth 8, ?_, ?_, ?_⟩
  · simp [u16bytes]
  · rw [← wRepr_eq_spec, ← wRepr_eq_spec, u16le_bytes, h]
  · rw [fcBit_eq, fcBit_eq, u16le_bytes, h7]

/-- **C02** (enumerated fields, complete): writing any value that has a code changes that field
to that value and nothing else. -/
theorem C02_enum_setters (o0 o1 : Byte) (rest : Bytes) :
    (∀ t, t ≠ FrameType.unknown →
      UpdatesOnly (setFrameType · t) (fun r => { r with frameType := t }) o0 o1 rest) ∧
    (∀ m, m ≠ AddressingMode.unknown →
      UpdatesOnly (setDstMode · m) (fun r => { r with dstMode := m }) o0 o1 rest) ∧
    (∀ m, m ≠ AddressingMode.unknown →
      UpdatesOnly (setSrcMode · m) (fun r => { r with srcMode := m }) o0 o1 rest) ∧
    (∀ v, UpdatesOnly (setFrameVersion · v) (fun r => { r with frameVersion := v }) o0 o1 rest) := by
  refine ⟨?_, ?_, ?_, ?_⟩
  · intro t ht
    apply upd_word
    · simp only [wRepr, wFrameType_bits, wSecurity_bit, wPending_bit,
        wAck_bit, wPanComp_bit, wSeqSup_bit, wIe_bit, wDstMode_bits, wSrcMode_bits,
        wVersion_bits, getLsbD_setField3, BitVec.getLsbD_setWidth]
      simp [-BitVec.getLsbD_eq_getElem, type_bits ht]
    · rw [getLsbD_setField3]; rfl
  · intro t ht
    apply upd_word
    · simp only [wRepr, wFrameType_bits, wSecurity_bit, wPending_bit,
        wAck_bit, wPanComp_bit, wSeqSup_bit, wIe_bit, wDstMode_bits, wSrcMode_bits,
        wVersion_bits, getLsbD_setField2 _ _ 10 _ (by decide : 10 + 1 < 16), BitVec.getLsbD_setWidth]
      simp [-BitVec.getLsbD_eq_getElem, mode_bits ht]
    · rw [getLsbD_setField2 _ _ 10 _ (by decide)]; rfl
  · intro t ht
    apply upd_word
    · simp only [wRepr, wFrameType_bits, wSecurity_bit, wPending_bit,
        wAck_bit, wPanComp_bit, wSeqSup_bit, wIe_bit, wDstMode_bits, wSrcMode_bits,
        wVersion_bits, getLsbD_setField2 _ _ 14 _ (by decide : 14 + 1 < 16), BitVec.getLsbD_setWidth]
      simp [-BitVec.getLsbD_eq_getElem, mode_bits ht]
    · rw [getLsbD_setField2 _ _ 14 _ (by decide)]; rfl
  · intro t
    apply upd_word
    · simp only [wRepr, wFrameType_bits, wSecurity_bit, wPending_bit,
        wAck_bit, wPanComp_bit, wSeqSup_bit, wIe_bit, wDstMode_bits, wSrcMode_bits,
        wVersion_bits, getLsbD_setField2 _ _ 12 _ (by decide : 12 + 1 < 16), BitVec.getLsbD_setWidth]
      simp [-BitVec.getLsbD_eq_getElem, version_bits]
    · rw [getLsbD_setField2 _ _ 12 _ (by decide)]; rfl

/-- **C02**, the values without a code: writing `FrameType::Unknown` makes the frame a beacon and
writing `AddressingMode::Unknown` makes the address absent; nothing else changes. -/
theorem C02_unknown_values (o0 o1 : Byte) (rest : Bytes) :
    UpdatesOnly (setFrameType · .unknown) (fun r => { r with frameType := .beacon }) o0 o1 rest ∧
    UpdatesOnly (setDstMode · .unknown) (fun r => { r with dstMode := .absent }) o0 o1 rest ∧
    UpdatesOnly (setSrcMode · .unknown) (fun r => { r with srcMode := .absent }) o0 o1 rest := by
  obtain ⟨h1, h2, h3, -⟩ := C02_enum_setters o0 o1 rest
  have e1 : ∀ b, setFrameType b .unknown = setFrameType b .beacon := fun b => by
    unfold setFrameType; congr 1
  have e2 : ∀ b, setDstMode b .unknown = setDstMode b .absent := fun b => by
    unfold setDstMode; congr 1
  have e3 : ∀ b, setSrcMode b .unknown = setSrcMode b .absent := fun b => by
    unfold setSrcMode; congr 1
  simp only [UpdatesOnly, e1, e2, e3]
  exact ⟨h1 .beacon (by decide), h2 .absent (by decide), h3 .absent (by decide)⟩

example : setFrameType [0x41, 0x88] .unknown = .ok [0x40, 0x88] ∧
    setDstMode [0x41, 0x88] .unknown = .ok [0x41, 0x80] := by decide

/-- The full claim of C02 for the boolean fields. -/
def C02_bool_statement : Prop := ∀ (o0 o1 : Byte) (rest : Bytes) (v : Bool),
    UpdatesOnly (setSecurityEnabled · v) (fun r => { r with securityEnabled := v }) o0 o1 rest ∧
    UpdatesOnly (setFramePending · v) (fun r => { r with framePending := v }) o0 o1 rest ∧
    UpdatesOnly (setAckRequest · v) (fun r => { r with ackRequest := v }) o0 o1 rest ∧
    UpdatesOnly (setPanIdCompression · v) (fun r => { r with panIdCompression := v }) o0 o1 rest ∧
    UpdatesOnly (setSeqNoSuppression · v) (fun r => { r with seqNoSuppression := v }) o0 o1 rest ∧
    UpdatesOnly (setIePresent · v) (fun r => { r with iePresent := v }) o0 o1 rest

/-- **C02**, what the code does for every boolean field, prior word and value: the field becomes
`old || v`; nothing else changes.  (The full claim wants `v`; missing: clearing a set bit.) -/
theorem C02_bool_setters_or_partial (o0 o1 : Byte) (rest : Bytes) (v : Bool) :
    UpdatesOnly (setSecurityEnabled · v)
      (fun r => { r with securityEnabled := r.securityEnabled || v }) o0 o1 rest ∧
    UpdatesOnly (setFramePending · v)
      (fun r => { r with framePending := r.framePending || v }) o0 o1 rest ∧
    UpdatesOnly (setAckRequest · v)
      (fun r => { r with ackRequest := r.ackRequest || v }) o0 o1 rest ∧
    UpdatesOnly (setPanIdCompression · v)
      (fun r => { r with panIdCompression := r.panIdCompression || v }) o0 o1 rest ∧
    UpdatesOnly (setSeqNoSuppression · v)
      (fun r => { r with seqNoSuppression := r.seqNoSuppression || v }) o0 o1 rest ∧
    UpdatesOnly (setIePresent · v)
      (fun r => { r with iePresent := r.iePresent || v }) o0 o1 rest := by
  refine ⟨?_, ?_, ?_, ?_, ?_, ?_⟩ <;> apply upd_word <;>
    simp only [wRepr, wFrameType_bits, wSecurity_bit, wPending_bit,
        wAck_bit, wPanComp_bit, wSeqSup_bit, wIe_bit, wDstMode_bits, wSrcMode_bits,
        wVersion_bits, getLsbD_orBool _ _ 3 _ (by decide : 3 < 16),
        getLsbD_orBool _ _ 4 _ (by decide : 4 < 16),
        getLsbD_orBool _ _ 5 _ (by decide : 5 < 16), getLsbD_orBool _ _ 6 _ (by decide : 6 < 16),
        getLsbD_orBool _ _ 8 _ (by decide : 8 < 16), getLsbD_orBool _ _ 9 _ (by decide : 9 < 16)] <;>
    simp [-BitVec.getLsbD_eq_getElem]

/-- **C02** is false of the code: `set_ack_request(false)` leaves a set bit set. -/
theorem C02_bool_setters_false : ¬ C02_bool_statement := by
  intro h
  obtain ⟨-, -, ⟨p0, p1, he, hd, -⟩, -⟩ := h 0x20 0 [] false
  have e1 : setAckRequest [0x20, 0] false = .ok [0x20, 0] := by decide
  simp only [e1, Out.ok.injEq, List.cons.injEq, and_true] at he
  obtain ⟨rfl, rfl⟩ := he
  revert hd; decide

/-- Non-vacuity of the partial theorem: on a busy word, one setter call that changes its bit. -/
example : setAckRequest [0x41, 0x88, 0x07] true = .ok [0x61, 0x88, 0x07] := by decide

/-- **C03**.  Emitting a representation into a zeroed field and parsing it back returns it;
bytes after the field are untouched and `buffer_len` is what was written. -/
theorem C03_emit_parse (r : FrameControlRepr) (hw : Writable r) (rest : Bytes) :
    ∃ o0 o1, FrameControlRepr.emit r (0 :: 0 :: rest) = .ok (o0 :: o1 :: rest) ∧
      FrameControlRepr.parse (o0 :: o1 :: rest) = .ok r ∧
      decodeFc o0 o1 = r ∧ fcBit o0 o1 7 = false ∧ r.bufferLen = 2 := by
  refine ⟨(emitWord r 0).setWidth 8, ((emitWord r 0) >>> 8).setWidth 8, ?_, ?_, ?_, ?_, rfl⟩
  · rw [FrameControlRepr.emit_cons]; rfl
  · rw [FrameControlRepr.parse_cons, u16le_bytes, wRepr_emitWord r hw]
  · rw [← wRepr_eq_spec, u16le_bytes, wRepr_emitWord r hw]
  · rw [fcBit_eq, u16le_bytes, emitWord_bits]; rfl

/-- **C03**, consequence: distinct writable representations are emitted as distinct octets. -/
theorem C03_emit_injective (r s : FrameControlRepr) (hr : Writable r) (hs : Writable s)
    (h : FrameControlRepr.emit r [0, 0] = FrameControlRepr.emit s [0, 0]) : r = s := by
  obtain ⟨a, b, h1, -, h2, -⟩ := C03_emit_parse r hr []
  obtain ⟨c, d, h3, -, h4, -⟩ := C03_emit_parse s hs []
  rw [h1, h3] at h
  simp only [Out.ok.injEq, List.cons.injEq, and_true] at h
  rw [← h2, ← h4, h.1, h.2]

/-- Non-vacuity for C03: a fully populated representation is writable. -/
example : Writable ⟨.data, true, false, true, true, false, true, .short, .extended, .v2020⟩ := by
  decide

/-- C03 needs `Writable`: the placeholder `Unknown` type is emitted as a beacon. -/
theorem C03_unknown_not_preserved : ∃ r : FrameControlRepr, ∃ b,
    FrameControlRepr.emit r [0, 0] = .ok b ∧ FrameControlRepr.parse b ≠ .ok r :=
  ⟨⟨.unknown, false, false, false, false, false, false, .absent, .absent, .v2003⟩, [0, 0],
    by decide, by decide⟩

end Dot15d4.Props
