import Verif.Spec.IeCodes
import Verif.Lemmas.Ie
import Verif.Lemmas.Bits

/-! # C68: identifiers of information elements -/

namespace Dot15d4.Props
open Out Spec

/-! ## Reading -/

theorem setWidth_toNat_bits (w : BitVec 16) (lo n : Nat) (h : n ≤ 8) :
    (((w >>> lo) &&& BitVec.ofNat 16 (2 ^ n - 1)).setWidth 8).toNat = bits w lo n := by
  rw [BitVec.toNat_setWidth, bits_shift_mask w lo n (by omega), Nat.mod_eq_of_lt]
  have h1 : bits w lo n < 2 ^ n := Nat.mod_lt _ (Nat.two_pow_pos n)
  have h2 : 2 ^ n ≤ 2 ^ 8 := Nat.pow_le_pow_right (by decide) h
  omega

theorem header_ofU8 (v : Byte) :
    HeaderElementId.ofU8 v = named headerCodes .unkown v.toNat := by
  revert v; decide +kernel
theorem payload_ofU8 (v : Byte) :
    PayloadGroupId.ofU8 v = named payloadCodes .unknown v.toNat := by
  revert v; decide +kernel
theorem short_ofU8 (v : Byte) :
    NestedSubIdShort.ofU8 v = named shortCodes .unkown v.toNat := by
  revert v; decide +kernel
theorem long_ofU8 (v : Byte) :
    NestedSubIdLong.ofU8 v = named longCodes .unkown v.toNat := by
  revert v; decide +kernel

/-- **C68**, the full property, reading: the id of a header element is the entry of the table for
its bits 7-14, that of a payload element for its bits 11-14, that of a nested element for its bits
8-14 or, when bit 15 is set, 11-14; codes not in the table are unknown. -/
def C68_statement : Prop := ∀ d : Bytes, 2 ≤ d.length →
  HeaderIe.elementId d = .ok (named headerCodes .unkown (bits (desc d) 7 8)) ∧
  PayloadIe.groupId d = .ok (named payloadCodes .unknown (bits (desc d) 11 4)) ∧
  NestedIe.subId d = .ok (if bits (desc d) 15 1 = 1 then
    .long (named longCodes .unkown (bits (desc d) 11 4))
    else .short (named shortCodes .unkown (bits (desc d) 8 7)))

/-- **C68** is false of the code: a payload termination element is not recognised, and neither is a
vendor specific nested element. -/
theorem C68_false : ¬ C68_statement ∧
    (PayloadIe.groupId [0x00, 0xf8] = .ok .unknown ∧ bits (desc [0x00, 0xf8]) 11 4 = 15) ∧
    (NestedIe.subId [0x00, 0x40] = .ok (.short .unkown) ∧ bits (desc [0x00, 0x40]) 8 7 = 0x40) := by
  refine ⟨fun h => ?_, by decide, by decide⟩
  have := (h [0x00, 0xf8] (by decide)).2.1
  revert this; decide

/-- **C68**, reading, what holds (`_partial`: only three bits of a payload group id and six bits of a
short nested id are read, so the codes 8-15 and 0x40-0x7f are misread). -/
theorem C68_read_partial (d : Bytes) (h : 2 ≤ d.length) :
    HeaderIe.elementId d = .ok (named headerCodes .unkown (bits (desc d) 7 8)) ∧
    PayloadIe.groupId d = .ok (named payloadCodes .unknown (bits (desc d) 11 3)) ∧
    NestedIe.subId d = .ok (if bits (desc d) 15 1 = 1 then
      .long (named longCodes .unkown (bits (desc d) 11 4))
      else .short (named shortCodes .unkown (bits (desc d) 8 6))) := by
  refine ⟨?_, ?_, ?_⟩
  · rw [HeaderIe.elementId, desc_readU16 h, bind_ok, HeaderIe.wId, header_ofU8]
    exact congrArg (fun n => Out.ok (named headerCodes .unkown n))
      (setWidth_toNat_bits (desc d) 7 8 (by decide))
  · rw [PayloadIe.groupId, desc_readU16 h, bind_ok, PayloadIe.wId, payload_ofU8]
    exact congrArg (fun n => Out.ok (named payloadCodes .unknown n))
      (setWidth_toNat_bits (desc d) 11 3 (by decide))
  · rw [NestedIe.subId, desc_readU16 h, bind_ok, NestedIe.wSubId, NestedIe.wLong_eq]
    simp only [decide_eq_true_eq]
    split
    · rw [long_ofU8]
      exact congrArg (fun n => Out.ok (NestedSubId.long (named longCodes .unkown n)))
        (setWidth_toNat_bits (desc d) 11 4 (by decide))
    · rw [short_ofU8]
      exact congrArg (fun n => Out.ok (NestedSubId.short (named shortCodes .unkown n)))
        (setWidth_toNat_bits (desc d) 8 6 (by decide))

/-- For codes the fields read can hold, this is the full property. -/
theorem C68_read_small_partial (d : Bytes) (h : 2 ≤ d.length) (h1 : bits (desc d) 14 1 = 0) :
    HeaderIe.elementId d = .ok (named headerCodes .unkown (bits (desc d) 7 8)) ∧
    PayloadIe.groupId d = .ok (named payloadCodes .unknown (bits (desc d) 11 4)) ∧
    NestedIe.subId d = .ok (if bits (desc d) 15 1 = 1 then
      .long (named longCodes .unkown (bits (desc d) 11 4))
      else .short (named shortCodes .unkown (bits (desc d) 8 7))) := by
  obtain ⟨g1, g2, g3⟩ := C68_read_partial d h
  have e1 : bits (desc d) 11 4 = bits (desc d) 11 3 := by
    simp only [bits] at h1 ⊢; omega
  have e2 : bits (desc d) 8 7 = bits (desc d) 8 6 := by
    simp only [bits] at h1 ⊢; omega
  refine ⟨g1, by rw [e1]; exact g2, by rw [e2]; exact g3⟩

/-- A slotframe element, and a header termination. -/
example : bits (desc [0x0a, 0x1b]) 14 1 = 0 ∧ bits (desc [0x0a, 0x1b]) 8 7 = 0x1b ∧
    bits (desc [0x00, 0x3f]) 7 8 = 0x7e := by decide

/-! ## Writing -/

theorem desc_u16bytes (w : BitVec 16) (l : Bytes) : desc (u16bytes w ++ l) = w := by
  have := desc_readU16 (d := u16bytes w ++ l) (by simp [u16bytes])
  rw [readU16_u16bytes] at this
  simp only [ok.injEq] at this
  exact this.symm

private theorem hw1 (w i : BitVec 16) :
    ((w &&& ~~~0x7f80#16) ||| ((i <<< 7) &&& 0x7f80#16)) >>> 7 &&& 0xff#16 = i &&& 0xff#16 := by
  bits16
private theorem hw2 (w i : BitVec 16) :
    ((w &&& ~~~0x7f80#16) ||| ((i <<< 7) &&& 0x7f80#16)) &&& 0x7f#16 = w &&& 0x7f#16 := by
  bits16
private theorem hw3 (w i : BitVec 16) :
    ((w &&& ~~~0x7f80#16) ||| ((i <<< 7) &&& 0x7f80#16)) >>> 15 &&& 1#16 = w >>> 15 &&& 1#16 := by
  bits16

private theorem pw1 (w i : BitVec 16) :
    ((w &&& ~~~0x7800#16) ||| (i <<< 11) ||| 0x8000#16) >>> 11 &&& 0x0f#16 = i &&& 0x0f#16 := by
  bits16
private theorem pw2 (w i : BitVec 16) :
    ((w &&& ~~~0x7800#16) ||| (i <<< 11) ||| 0x8000#16) &&& 0x7ff#16 = w &&& 0x7ff#16 := by
  bits16
private theorem pw3 (w i : BitVec 16) :
    ((w &&& ~~~0x7800#16) ||| (i <<< 11) ||| 0x8000#16) >>> 15 &&& 1#16 = 1#16 := by
  bits16

private theorem sw1 (w i : BitVec 16) :
    ((w &&& ~~~0x7f00#16) ||| (i <<< 8)) >>> 8 &&& 0x7f#16 = i &&& 0x7f#16 := by
  bits16
private theorem sw2 (w i : BitVec 16) :
    ((w &&& ~~~0x7f00#16) ||| (i <<< 8)) &&& 0xff#16 = w &&& 0xff#16 := by
  bits16

private theorem bits_of (w x : BitVec 16) (lo n : Nat) (h : n ≤ 16)
    (e : (w >>> lo) &&& BitVec.ofNat 16 (2 ^ n - 1) = x) : bits w lo n = x.toNat := by
  rw [← bits_shift_mask w lo n h, e]

private theorem bits_low (w w' : BitVec 16) (n : Nat) (h : n ≤ 16)
    (e : w &&& BitVec.ofNat 16 (2 ^ n - 1) = w' &&& BitVec.ofNat 16 (2 ^ n - 1)) :
    bits w 0 n = bits w' 0 n := by
  have h1 := toNat_and_mask w n h
  have h2 := toNat_and_mask w' n h
  simp only [bits, Nat.pow_zero, Nat.div_one]
  rw [← h1, ← h2, e]

/-- **C68**, writing: setting an id puts its code into its field (bit 15 tells header from payload
and short from long elements), and leaves the length field and everything behind the descriptor as
it was. -/
theorem C68_write (b0 b1 : Byte) (l : Bytes) :
    (∀ code id, (code, id) ∈ headerCodes → ∃ d, HeaderIe.setElementId (b0 :: b1 :: l) id = .ok d ∧
      d.drop 2 = l ∧ bits (desc d) 7 8 = code ∧ bits (desc d) 0 7 = bits (u16le b0 b1) 0 7 ∧
      bits (desc d) 15 1 = bits (u16le b0 b1) 15 1) ∧
    (∀ code id, (code, id) ∈ payloadCodes → ∃ d, PayloadIe.setGroupId (b0 :: b1 :: l) id = .ok d ∧
      d.drop 2 = l ∧ bits (desc d) 11 4 = code ∧ bits (desc d) 0 11 = bits (u16le b0 b1) 0 11 ∧
      bits (desc d) 15 1 = 1) ∧
    (∀ code id, (code, id) ∈ shortCodes → ∃ d,
      NestedIe.setSubId (b0 :: b1 :: l) (.short id) = .ok d ∧
      d.drop 2 = l ∧ bits (desc d) 8 7 = code ∧ bits (desc d) 0 8 = bits (u16le b0 b1) 0 8) ∧
    (∀ code id, (code, id) ∈ longCodes → ∃ d,
      NestedIe.setSubId (b0 :: b1 :: l) (.long id) = .ok d ∧
      d.drop 2 = l ∧ bits (desc d) 11 4 = code ∧ bits (desc d) 0 11 = bits (u16le b0 b1) 0 11 ∧
      bits (desc d) 15 1 = 1) := by
  refine ⟨?_, ?_, ?_, ?_⟩
  · intro code id hm
    refine ⟨_, by rw [HeaderIe.setElementId, updU16_cons], rfl, ?_⟩
    rw [desc_u16bytes]
    refine ⟨?_, bits_low _ _ 7 (by decide) (hw2 _ _), ?_⟩
    · rw [bits_of _ _ 7 8 (by decide) (hw1 _ _)]
      have : ∀ p ∈ headerCodes, (p.2.toU16 &&& 0xff#16).toNat = p.1 := by decide
      exact this _ hm
    · rw [bits_of _ _ 15 1 (by decide) (hw3 _ _)]
      exact bits_shift_mask _ 15 1 (by decide)
  · intro code id hm
    refine ⟨_, by rw [PayloadIe.setGroupId, updU16_cons], rfl, ?_⟩
    rw [desc_u16bytes]
    refine ⟨?_, bits_low _ _ 11 (by decide) (pw2 _ _), ?_⟩
    · rw [bits_of _ _ 11 4 (by decide) (pw1 _ _)]
      have : ∀ p ∈ payloadCodes, (p.2.toU16 &&& 0x0f#16).toNat = p.1 := by decide
      exact this _ hm
    · rw [bits_of _ _ 15 1 (by decide) (pw3 _ _)]; rfl
  · intro code id hm
    refine ⟨_, by rw [NestedIe.setSubId, updU16_cons], rfl, ?_⟩
    rw [desc_u16bytes]
    refine ⟨?_, bits_low _ _ 8 (by decide) (sw2 _ _)⟩
    refine (bits_of _ _ 8 7 (by decide) (sw1 _ id.toU16)).trans ?_
    have : ∀ p ∈ shortCodes, (p.2.toU16 &&& 0x7f#16).toNat = p.1 := by decide
    exact this _ hm
  · intro code id hm
    refine ⟨_, by rw [NestedIe.setSubId, updU16_cons], rfl, ?_⟩
    rw [desc_u16bytes]
    have e : (u16le b0 b1 &&& ~~~NestedIe.idMask (.long id)) ||| NestedIe.idBits (.long id) =
        (u16le b0 b1 &&& ~~~0x7800#16) ||| (id.toU16 <<< 11) ||| 0x8000#16 := by
      rw [BitVec.or_assoc]; rfl
    rw [e]
    refine ⟨?_, bits_low _ _ 11 (by decide) (pw2 _ _), ?_⟩
    · rw [bits_of _ _ 11 4 (by decide) (pw1 _ _)]
      have : ∀ p ∈ longCodes, (p.2.toU16 &&& 0x0f#16).toNat = p.1 := by decide
      exact this _ hm
    · rw [bits_of _ _ 15 1 (by decide) (pw3 _ _)]; rfl

example : ∃ d, HeaderIe.setElementId [0xff, 0xff, 7] .timeCorrection = .ok d ∧ d.drop 2 = [7] ∧
    bits (desc d) 7 8 = 0x1e := by
  obtain ⟨d, h1, h2, h3, -⟩ := (C68_write 0xff 0xff [7]).1 0x1e .timeCorrection (by decide)
  exact ⟨d, h1, h2, h3⟩

/-- The tables are complete: every id but "unknown" has a code. -/
theorem C68_tables :
    (∀ id, id ≠ HeaderElementId.unkown → ∃ c, (c, id) ∈ headerCodes) ∧
    (∀ id, id ≠ PayloadGroupId.unknown → ∃ c, (c, id) ∈ payloadCodes) ∧
    (∀ id, id ≠ NestedSubIdShort.unkown → ∃ c, (c, id) ∈ shortCodes) ∧
    (∀ id, id ≠ NestedSubIdLong.unkown → ∃ c, (c, id) ∈ longCodes) := by
  refine ⟨?_, ?_, ?_, ?_⟩ <;> intro id h <;>
    cases id <;> first | exact absurd rfl h | (simp [headerCodes, payloadCodes, shortCodes, longCodes])

/-- The numbers behind "unknown" follow the last one of each enumeration; written into an element
they are read as unknown for header and nested elements (a payload element then reads as ESDU, see
`C17_fields`). -/
theorem C68_unknown (b0 b1 : Byte) (l : Bytes) :
    (∃ d, HeaderIe.setElementId (b0 :: b1 :: l) .unkown = .ok d ∧ bits (desc d) 7 8 = 0x80) ∧
    (∃ d, NestedIe.setSubId (b0 :: b1 :: l) (.short .unkown) = .ok d ∧
      bits (desc d) 8 7 = 0x47) ∧
    (∃ d, NestedIe.setSubId (b0 :: b1 :: l) (.long .unkown) = .ok d ∧
      bits (desc d) 11 4 = 0x0a) := by
  refine ⟨⟨_, by rw [HeaderIe.setElementId, updU16_cons], ?_⟩,
    ⟨_, by rw [NestedIe.setSubId, updU16_cons], ?_⟩, ⟨_, by rw [NestedIe.setSubId, updU16_cons], ?_⟩⟩
  · rw [desc_u16bytes, bits_of _ _ 7 8 (by decide) (hw1 _ _)]; rfl
  · rw [desc_u16bytes]
    exact (bits_of _ _ 8 7 (by decide) (sw1 _ (NestedSubIdShort.unkown.toU16))).trans rfl
  · have e : (u16le b0 b1 &&& ~~~NestedIe.idMask (.long .unkown)) ||| NestedIe.idBits (.long .unkown) =
        (u16le b0 b1 &&& ~~~0x7800#16) ||| (NestedSubIdLong.unkown.toU16 <<< 11) ||| 0x8000#16 := by
      rw [BitVec.or_assoc]; rfl
    rw [desc_u16bytes, e, bits_of _ _ 11 4 (by decide) (pw1 _ _)]; rfl

end Dot15d4.Props
