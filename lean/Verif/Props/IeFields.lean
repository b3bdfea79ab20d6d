import Verif.Lemmas.Ie
import Verif.Lemmas.Bits

namespace Dot15d4.Props
open Out

/-! # C16 - C18: descriptor fields of information elements -/

/-! ## C16: header elements -/

private theorem header_word (w n i : BitVec 16) :
    ((((w &&& ~~~0x00fe#16) ||| (n &&& 0x00fe#16)) &&& ~~~0x7f80#16) |||
      ((i <<< 7) &&& 0x7f80#16)) &&& 0x00fe#16 = (n &&& 0x007e#16) ||| ((i &&& 1#16) <<< 7) := by
  bits16

private theorem header_word_id (w n i : BitVec 16) :
    ((((((w &&& ~~~0x00fe#16) ||| (n &&& 0x00fe#16)) &&& ~~~0x7f80#16) |||
      ((i <<< 7) &&& 0x7f80#16)) >>> 7) &&& 0x00ff#16) = i &&& 0x00ff#16 := by
  bits16

private theorem header_word' (w n i : BitVec 16) :
    ((((w &&& ~~~0x7f80#16) ||| ((i <<< 7) &&& 0x7f80#16)) &&& ~~~0x00fe#16) |||
      (n &&& 0x00fe#16)) &&& 0x00fe#16 = n &&& 0x00fe#16 := by
  bits16

private theorem header_word_id' (w n i : BitVec 16) :
    ((((((w &&& ~~~0x7f80#16) ||| ((i <<< 7) &&& 0x7f80#16)) &&& ~~~0x00fe#16) |||
      (n &&& 0x00fe#16)) >>> 7) &&& 0x00ff#16) =
      (i &&& 0x00fe#16) ||| ((n &&& 0x0080#16) >>> 7) := by
  bits16

private theorem mask7e (n : BitVec 16) (b : Bool) :
    ((n &&& 0x007e#16) ||| (if b then 0x80#16 else 0#16)).toNat =
      n.toNat % 128 / 2 * 2 + 128 * b.toNat := by
  have h1 : n &&& 0x007e#16 = ((n.setWidth 8) &&& 0x7e#8).setWidth 16 := by bits16
  have h2 : (n.setWidth 8).toNat = n.toNat % 256 := by simp
  have h3 : ∀ m : BitVec 8, ∀ b : Bool,
    (((m &&& 0x7e#8).setWidth 16) ||| (if b then 0x80#16 else 0#16)).toNat =
      m.toNat % 128 / 2 * 2 + 128 * b.toNat := by decide +kernel
  rw [h1, h3, h2]
  omega

private theorem maskfe (n : BitVec 16) : (n &&& 0x00fe#16).toNat = n.toNat % 256 / 2 * 2 := by
  have h1 : n &&& 0x00fe#16 = ((n.setWidth 8) &&& 0xfe#8).setWidth 16 := by bits16
  have h2 : (n.setWidth 8).toNat = n.toNat % 256 := by simp
  have h3 : ∀ m : BitVec 8, ((m &&& 0xfe#8).setWidth 16).toNat = m.toNat / 2 * 2 := by
    decide +kernel
  rw [h1, h3, h2]

/-- Parity of an element id. -/
def odd (id : HeaderElementId) : Bool := id.toU16.toNat % 2 == 1

/-- **C16**, exact behaviour of `set_length(n)` then `set_element_id(id)`: the id is read back,
and so is the length with its bit 0 cleared and its bit 7 replaced by the parity of the id. -/
theorem C16_length_then_id (b0 b1 : Byte) (l : Bytes) (n : BitVec 16) (id : HeaderElementId) :
    ∃ d1 d2, HeaderIe.setLength (b0 :: b1 :: l) n = .ok d1 ∧ HeaderIe.setElementId d1 id = .ok d2 ∧
      d2.drop 2 = l ∧ HeaderIe.elementId d2 = .ok id ∧
      HeaderIe.len d2 = .ok (n.toNat % 128 / 2 * 2 + 128 * (odd id).toNat) := by
  refine ⟨u16bytes (((u16le b0 b1) &&& ~~~0x00fe#16) ||| (n &&& 0x00fe#16)) ++ l,
    u16bytes (((((u16le b0 b1) &&& ~~~0x00fe#16) ||| (n &&& 0x00fe#16)) &&& ~~~0x7f80#16) |||
      ((id.toU16 <<< 7) &&& 0x7f80#16)) ++ l, by rw [HeaderIe.setLength, updU16_cons],
    by rw [HeaderIe.setElementId, updU16_u16bytes], ?_⟩
  · refine ⟨rfl, ?_, ?_⟩
    · simp only [HeaderIe.elementId, readU16_u16bytes, bind_ok, HeaderIe.wId, header_word_id]
      cases id <;> decide
    · simp only [HeaderIe.len, readU16_u16bytes, bind_ok, HeaderIe.wLen, header_word]
      rw [← mask7e]
      cases id <;> rfl

/-- **C16**, exact behaviour in the other order: the even part of the length modulo 256 is read
back, and bit 0 of the id is replaced by bit 7 of the length. -/
theorem C16_id_then_length (b0 b1 : Byte) (l : Bytes) (n : BitVec 16) (id : HeaderElementId) :
    ∃ d1 d2, HeaderIe.setElementId (b0 :: b1 :: l) id = .ok d1 ∧ HeaderIe.setLength d1 n = .ok d2 ∧
      d2.drop 2 = l ∧ HeaderIe.len d2 = .ok (n.toNat % 256 / 2 * 2) ∧
      (n.getLsbD 7 = odd id → HeaderIe.elementId d2 = .ok id) := by
  refine ⟨u16bytes ((u16le b0 b1 &&& ~~~0x7f80#16) ||| ((id.toU16 <<< 7) &&& 0x7f80#16)) ++ l,
    u16bytes ((((u16le b0 b1 &&& ~~~0x7f80#16) ||| ((id.toU16 <<< 7) &&& 0x7f80#16)) &&&
      ~~~0x00fe#16) ||| (n &&& 0x00fe#16)) ++ l, by rw [HeaderIe.setElementId, updU16_cons],
    by rw [HeaderIe.setLength, updU16_u16bytes], ?_⟩
  · refine ⟨rfl, ?_, ?_⟩
    · simp only [HeaderIe.len, readU16_u16bytes, bind_ok, HeaderIe.wLen, header_word']
      rw [maskfe]
    · intro h
      simp only [HeaderIe.elementId, readU16_u16bytes, bind_ok, HeaderIe.wId, header_word_id']
      have e : (n &&& 0x0080#16) >>> 7 = if n.getLsbD 7 then 1#16 else 0#16 := by
        clear h
        cases hb : n.getLsbD 7 <;> simp only [if_true, Bool.false_eq_true, if_false] <;> bits16
      rw [e, h]
      cases id <;> decide

example : ∃ d1 d2, HeaderIe.setElementId [0, 0, 9] .timeCorrection = .ok d1 ∧
    HeaderIe.setLength d1 5 = .ok d2 ∧ d2.drop 2 = [9] ∧ HeaderIe.len d2 = .ok 4 ∧
    HeaderIe.elementId d2 = .ok .timeCorrection := by
  obtain ⟨d1, d2, h1, h2, h3, h4, h5⟩ := C16_id_then_length 0 0 [9] 5 .timeCorrection
  exact ⟨d1, d2, h1, h2, h3, h4, h5 (by decide)⟩

/-- **C16**, the full property: whatever length and id are set, they are read back. -/
def C16_statement : Prop :=
  ∀ (d d1 d2 : Bytes) (n : BitVec 16) (id : HeaderElementId), n.toNat < 128 →
    HeaderIe.setLength d n = .ok d1 → HeaderIe.setElementId d1 id = .ok d2 →
    HeaderIe.len d2 = .ok n.toNat ∧ HeaderIe.elementId d2 = .ok id

/-- **C16** is false of the code: a header termination 2 element of length 0 reads as length
128. -/
theorem C16_false : ¬ C16_statement := by
  intro h
  have := (h [0, 0] [0, 0] [0x80, 0x3f] 0 .headerTermination2 (by decide) (by decide)
    (by decide)).1
  revert this; decide

/-- **C16**, what holds (`_partial`: odd lengths, odd ids and lengths of 128 and more are
excluded): even lengths below 128 and even ids are read back, in either order of writing. -/
theorem C16_fields_partial (b0 b1 : Byte) (l : Bytes) (n : BitVec 16) (id : HeaderElementId)
    (hn : n.toNat < 128) (he : n.toNat % 2 = 0) (hid : odd id = false) :
    (∃ d1 d2, HeaderIe.setLength (b0 :: b1 :: l) n = .ok d1 ∧ HeaderIe.setElementId d1 id = .ok d2 ∧
      HeaderIe.len d2 = .ok n.toNat ∧ HeaderIe.elementId d2 = .ok id) ∧
    (∃ d1 d2, HeaderIe.setElementId (b0 :: b1 :: l) id = .ok d1 ∧ HeaderIe.setLength d1 n = .ok d2 ∧
      HeaderIe.len d2 = .ok n.toNat ∧ HeaderIe.elementId d2 = .ok id) := by
  obtain ⟨d1, d2, h1, h2, -, h3, h4⟩ := C16_length_then_id b0 b1 l n id
  obtain ⟨e1, e2, g1, g2, -, g3, g4⟩ := C16_id_then_length b0 b1 l n id
  have h7 : n.getLsbD 7 = false := getLsbD_of_lt (k := 7) (by simpa using hn) (by decide)
  refine ⟨⟨d1, d2, h1, h2, ?_, h3⟩, ⟨e1, e2, g1, g2, ?_, g4 (by rw [h7, hid])⟩⟩
  · rw [h4, hid]; congr 1; simp; omega
  · rw [g3]; congr 1; omega

/-- The hypotheses are met by the time correction element of two bytes. -/
example : (2#16).toNat < 128 ∧ (2#16).toNat % 2 = 0 ∧ odd .timeCorrection = false := by decide

/-! ## C17: payload elements -/

private theorem payload_word (w n i : BitVec 16) :
    ((((w &&& ~~~0x07ff#16) ||| (n &&& 0x07ff#16)) &&& ~~~0x7800#16) ||| (i <<< 11) |||
      0x8000#16) &&& 0x03ff#16 = n &&& 0x03ff#16 := by
  bits16

private theorem payload_word_id (w n i : BitVec 16) :
    ((((((w &&& ~~~0x07ff#16) ||| (n &&& 0x07ff#16)) &&& ~~~0x7800#16) ||| (i <<< 11) |||
      0x8000#16) >>> 11) &&& 0x0007#16) = i &&& 0x0007#16 := by
  bits16

/-- **C17**, exact behaviour of `set_length(n)` then `set_group_id(id)`: the length is read back
modulo 1024, and the group id is read back for the three groups with a code below 8. -/
theorem C17_fields (b0 b1 : Byte) (l : Bytes) (n : BitVec 16) (id : PayloadGroupId) :
    ∃ d1 d2, PayloadIe.setLength (b0 :: b1 :: l) n = .ok d1 ∧ PayloadIe.setGroupId d1 id = .ok d2 ∧
      d2.drop 2 = l ∧ PayloadIe.length d2 = .ok (n.toNat % 1024) ∧
      (id = .esdu ∨ id = .mlme ∨ id = .vendorSpecific → PayloadIe.groupId d2 = .ok id) ∧
      (id = .payloadTermination → PayloadIe.groupId d2 = .ok .unknown) ∧
      (id = .unknown → PayloadIe.groupId d2 = .ok .esdu) := by
  refine ⟨u16bytes (((u16le b0 b1) &&& ~~~0x07ff#16) ||| (n &&& 0x07ff#16)) ++ l,
    u16bytes (((((u16le b0 b1) &&& ~~~0x07ff#16) ||| (n &&& 0x07ff#16)) &&& ~~~0x7800#16) |||
      (id.toU16 <<< 11) ||| 0x8000#16) ++ l, by rw [PayloadIe.setLength, updU16_cons],
    by rw [PayloadIe.setGroupId, updU16_u16bytes], ?_⟩
  · refine ⟨rfl, ?_, ?_, ?_, ?_⟩
    · have := toNat_and_mask n 10 (by decide)
      simp only [PayloadIe.length, readU16_u16bytes, bind_ok, PayloadIe.wLen, payload_word]
      exact congrArg _ this
    all_goals
      intro h
      simp only [PayloadIe.groupId, readU16_u16bytes, bind_ok, PayloadIe.wId, payload_word_id]
    · rcases h with rfl | rfl | rfl <;> decide
    · subst h; decide
    · subst h; decide

example : ∃ d1 d2, PayloadIe.setLength [0xff, 0xff] 1030 = .ok d1 ∧
    PayloadIe.setGroupId d1 .payloadTermination = .ok d2 ∧
    PayloadIe.length d2 = .ok 6 ∧ PayloadIe.groupId d2 = .ok .unknown := by
  obtain ⟨d1, d2, h1, h2, -, h3, -, h4, -⟩ := C17_fields 0xff 0xff [] 1030 .payloadTermination
  exact ⟨d1, d2, h1, h2, h3, h4 rfl⟩

/-- **C17**, the full property for lengths that fit the written 11-bit field. -/
def C17_statement : Prop :=
  ∀ (d d1 d2 : Bytes) (n : BitVec 16) (id : PayloadGroupId), n.toNat < 2048 → id ≠ .unknown →
    PayloadIe.setLength d n = .ok d1 → PayloadIe.setGroupId d1 id = .ok d2 →
    PayloadIe.length d2 = .ok n.toNat ∧ PayloadIe.groupId d2 = .ok id

/-- **C17** is false of the code, both for the length (1024 reads as 0) and for the payload
termination group (reads as unknown). -/
theorem C17_false : ¬ C17_statement ∧
    (∃ d1 d2, PayloadIe.setLength [0, 0] 1024 = .ok d1 ∧ PayloadIe.setGroupId d1 .mlme = .ok d2 ∧
      PayloadIe.length d2 = .ok 0) := by
  constructor
  · intro h
    have := (h [0, 0] [0, 0] [0x00, 0xf8] 0 .payloadTermination (by decide) (by decide) (by decide)
      (by decide)).2
    revert this; decide
  · exact ⟨[0x00, 0x04], [0x00, 0x8c], by decide, by decide, by decide⟩

/-- **C17**, what holds (`_partial`: lengths of 1024 and more and the payload termination group
are excluded). -/
theorem C17_fields_partial (b0 b1 : Byte) (l : Bytes) (n : BitVec 16) (id : PayloadGroupId)
    (hn : n.toNat < 1024) (hid : id = .esdu ∨ id = .mlme ∨ id = .vendorSpecific) :
    ∃ d1 d2, PayloadIe.setLength (b0 :: b1 :: l) n = .ok d1 ∧ PayloadIe.setGroupId d1 id = .ok d2 ∧
      PayloadIe.length d2 = .ok n.toNat ∧ PayloadIe.groupId d2 = .ok id := by
  obtain ⟨d1, d2, h1, h2, -, h3, h4, -⟩ := C17_fields b0 b1 l n id
  exact ⟨d1, d2, h1, h2, by rw [h3, Nat.mod_eq_of_lt hn], h4 hid⟩

example : (1023#16).toNat < 1024 ∧ (PayloadGroupId.mlme = .esdu ∨ PayloadGroupId.mlme = .mlme ∨
    PayloadGroupId.mlme = .vendorSpecific) := by decide

/-- **C17**: no payload element whatsoever is ever read as payload termination. -/
theorem C17_termination_never_read (d : Bytes) :
    PayloadIe.groupId d ≠ .ok .payloadTermination := by
  by_cases h : 2 ≤ d.length
  · rw [PayloadIe.groupId, desc_readU16 h]
    have := payload_never_stops (Spec.desc d)
    simp only [bind_ok, ne_eq, Out.ok.injEq]
    intro e
    rw [e] at this
    exact absurd this (by decide)
  · simp [PayloadIe.groupId, readU16_short (Nat.lt_of_not_le h)]

/-! ## C18: nested elements -/

private theorem short_word (w n i : BitVec 16) (hw : w.getLsbD 15 = false)
    (hi : i.getLsbD 7 = false) :
    ((((w &&& ~~~0x00ff#16) ||| (n &&& 0x00ff#16)) &&& ~~~0x7f00#16) ||| (i <<< 8)) =
      (n &&& 0x00ff#16) ||| (i <<< 8) := by
  bits16

private theorem short_word' (w n i : BitVec 16) (hw : w.getLsbD 15 = false)
    (hi : i.getLsbD 7 = false) :
    ((((w &&& ~~~0x7f00#16) ||| (i <<< 8)) &&& ~~~0x00ff#16) ||| (n &&& 0x00ff#16)) =
      (n &&& 0x00ff#16) ||| (i <<< 8) := by
  bits16

private theorem short_fields (n i : BitVec 16) (hi : i.getLsbD 7 = false) :
    (((n &&& 0x00ff#16) ||| (i <<< 8)) >>> 15) &&& 1#16 = 0#16 ∧
    ((n &&& 0x00ff#16) ||| (i <<< 8)) &&& 0x007f#16 = n &&& 0x007f#16 ∧
    (((n &&& 0x00ff#16) ||| (i <<< 8)) >>> 8) &&& 0x003f#16 = i &&& 0x003f#16 := by
  refine ⟨?_, ?_, ?_⟩ <;> bits16

private theorem long_word (w n i : BitVec 16) :
    ((((w &&& ~~~0x07ff#16) ||| (n &&& 0x07ff#16)) &&& ~~~0x7800#16) |||
      ((i <<< 11) ||| 0x8000#16)) = (n &&& 0x07ff#16) ||| (i <<< 11) ||| 0x8000#16 := by
  bits16

private theorem long_word' (w n i : BitVec 16) :
    ((((w &&& ~~~0x7800#16) ||| ((i <<< 11) ||| 0x8000#16)) &&& ~~~0x07ff#16) |||
      (n &&& 0x07ff#16)) = (n &&& 0x07ff#16) ||| (i <<< 11) ||| 0x8000#16 := by
  bits16

private theorem long_fields (n i : BitVec 16) :
    (((n &&& 0x07ff#16) ||| (i <<< 11) ||| 0x8000#16) >>> 15) &&& 1#16 = 1#16 ∧
    ((n &&& 0x07ff#16) ||| (i <<< 11) ||| 0x8000#16) &&& 0x03ff#16 = n &&& 0x03ff#16 ∧
    (((n &&& 0x07ff#16) ||| (i <<< 11) ||| 0x8000#16) >>> 11) &&& 0x000f#16 =
      i &&& 0x000f#16 := by
  refine ⟨?_, ?_, ?_⟩ <;> bits16

/-- The type bit (bit 15) of the descriptor is clear, as after `clear()`. -/
def TypeClear (b1 : Byte) : Prop := b1.getLsbD 7 = false

private theorem word_clear {b0 b1 : Byte} (h : TypeClear b1) :
    (u16le b0 b1).getLsbD 15 = false := by
  rw [getLsbD_u16le]; simp only [TypeClear] at h; simpa using h

/-- Both writing orders leave the same two bytes and the following bytes untouched. -/
private theorem nested_written (b0 b1 : Byte) (l : Bytes) (n : BitVec 16) (id : NestedSubId)
    (hc : id.isShort = true → TypeClear b1) :
    ∃ w, (∃ d1, NestedIe.setLength (b0 :: b1 :: l) n id = .ok d1 ∧
        NestedIe.setSubId d1 id = .ok (u16bytes w ++ l)) ∧
      (∃ d1, NestedIe.setSubId (b0 :: b1 :: l) id = .ok d1 ∧
        NestedIe.setLength d1 n id = .ok (u16bytes w ++ l)) ∧
      NestedIe.wLen w = (if id.isShort then n.toNat % 128 else n.toNat % 1024) ∧
      NestedIe.wLong w = !id.isShort ∧
      (id ≠ .short .vendorSpecific → id ≠ .short .srm → NestedIe.wSubId w = id) ∧
      (id = .short .vendorSpecific ∨ id = .short .srm → NestedIe.wSubId w = .short .unkown) := by
  cases id with
  | short i =>
    have hw := word_clear (b0 := b0) (hc rfl)
    have hi : i.toU16.getLsbD 7 = false := by cases i <;> decide
    refine ⟨(n &&& 0x00ff#16) ||| (i.toU16 <<< 8), ⟨_, by rw [NestedIe.setLength, updU16_cons], ?_⟩,
      ⟨_, by rw [NestedIe.setSubId, updU16_cons], ?_⟩, ?_⟩
    · rw [NestedIe.setSubId, updU16_u16bytes]
      simp only [NestedIe.lenMask, NestedIe.idMask, NestedIe.idBits, NestedSubId.isShort, if_true]
      rw [← short_word (u16le b0 b1) n i.toU16 hw hi]; rfl
    · rw [NestedIe.setLength, updU16_u16bytes]
      simp only [NestedIe.lenMask, NestedIe.idMask, NestedIe.idBits, NestedSubId.isShort, if_true]
      rw [← short_word' (u16le b0 b1) n i.toU16 hw hi]; rfl
    · obtain ⟨h1, h2, h3⟩ := short_fields n i.toU16 hi
      have hl : NestedIe.wLong ((n &&& 0x00ff#16) ||| (i.toU16 <<< 8)) = false := by
        rw [NestedIe.wLong, h1]; decide
      have hm := toNat_and_mask n 7 (by decide)
      refine ⟨?_, by rw [hl]; rfl, ?_, ?_⟩
      · rw [NestedIe.wLen, hl, h2]; simpa [NestedSubId.isShort] using hm
      · rw [NestedIe.wSubId, hl, h3]
        cases i <;> simp <;> decide
      · rw [NestedIe.wSubId, hl, h3]
        rintro (h | h) <;> · cases h; simp only [Bool.false_eq_true, if_false]; decide
  | long i =>
    refine ⟨(n &&& 0x07ff#16) ||| (i.toU16 <<< 11) ||| 0x8000#16,
      ⟨_, by rw [NestedIe.setLength, updU16_cons], ?_⟩,
      ⟨_, by rw [NestedIe.setSubId, updU16_cons], ?_⟩, ?_⟩
    · rw [NestedIe.setSubId, updU16_u16bytes]
      simp only [NestedIe.lenMask, NestedIe.idMask, NestedIe.idBits, NestedSubId.isShort,
        Bool.false_eq_true, if_false]
      rw [← long_word (u16le b0 b1) n i.toU16]; rfl
    · rw [NestedIe.setLength, updU16_u16bytes]
      simp only [NestedIe.lenMask, NestedIe.idMask, NestedIe.idBits, NestedSubId.isShort,
        Bool.false_eq_true, if_false]
      rw [← long_word' (u16le b0 b1) n i.toU16]; rfl
    · obtain ⟨h1, h2, h3⟩ := long_fields n i.toU16
      have hl : NestedIe.wLong ((n &&& 0x07ff#16) ||| (i.toU16 <<< 11) ||| 0x8000#16) = true := by
        rw [NestedIe.wLong, h1]; decide
      have hm := toNat_and_mask n 10 (by decide)
      refine ⟨?_, by rw [hl]; rfl, ?_, ?_⟩
      · rw [NestedIe.wLen, hl, h2]; simpa [NestedSubId.isShort] using hm
      · rw [NestedIe.wSubId, hl, h3]
        cases i <;> simp <;> decide
      · simp

/-- **C18**, exact behaviour, in either order of writing: the length is read back modulo 128
(short) or 1024 (long); the id is read back, except the short ids 0x40 (vendor specific) and
0x46 (SRM), which read as unknown.  For a short id the type bit must be clear beforehand
(`set_sub_id` never clears it). -/
theorem C18_fields (b0 b1 : Byte) (l : Bytes) (n : BitVec 16) (id : NestedSubId)
    (hc : id.isShort = true → TypeClear b1) :
    ∃ d, (∃ d1, NestedIe.setLength (b0 :: b1 :: l) n id = .ok d1 ∧ NestedIe.setSubId d1 id = .ok d) ∧
      (∃ d1, NestedIe.setSubId (b0 :: b1 :: l) id = .ok d1 ∧ NestedIe.setLength d1 n id = .ok d) ∧
      d.drop 2 = l ∧
      NestedIe.length d = .ok (if id.isShort then n.toNat % 128 else n.toNat % 1024) ∧
      (id ≠ .short .vendorSpecific → id ≠ .short .srm → NestedIe.subId d = .ok id) ∧
      (id = .short .vendorSpecific ∨ id = .short .srm →
        NestedIe.subId d = .ok (.short .unkown)) := by
  obtain ⟨w, h1, h2, h3, -, h4, h5⟩ := nested_written b0 b1 l n id hc
  refine ⟨u16bytes w ++ l, h1, h2, rfl, ?_, ?_, ?_⟩
  · simp [NestedIe.length, h3]
  · intro a b; simp [NestedIe.subId, h4 a b]
  · intro a; simp [NestedIe.subId, h5 a]

/-- **C18**, the type bit: once it is set, writing a short id does not make the element a short one:
in either order it is read as a long element, with some long id, so never with the id written. -/
theorem C18_stale_type (b0 b1 : Byte) (l : Bytes) (n : BitVec 16) (i : NestedSubIdShort)
    (hc : ¬ TypeClear b1) :
    ∃ d, (∃ d1, NestedIe.setLength (b0 :: b1 :: l) n (.short i) = .ok d1 ∧
        NestedIe.setSubId d1 (.short i) = .ok d) ∧
      (∃ d1, NestedIe.setSubId (b0 :: b1 :: l) (.short i) = .ok d1 ∧
        NestedIe.setLength d1 n (.short i) = .ok d) ∧
      d.drop 2 = l ∧ NestedIe.isLong d = .ok true ∧
      ∃ j, NestedIe.subId d = .ok (.long j) := by
  have h15 : (u16le b0 b1).getLsbD 15 = true := by
    rw [getLsbD_u16le]; simp only [TypeClear] at hc; simpa using hc
  have e : ∀ w : BitVec 16, w.getLsbD 15 = true → NestedIe.wLong w = true := by
    intro w h
    rw [NestedIe.wLong, beq_iff_eq]
    apply BitVec.eq_of_getLsbD_eq
    intro k hk
    simp only [BitVec.getLsbD_and, BitVec.getLsbD_ushiftRight]
    by_cases h0 : k = 0
    · subst h0; rw [h]; rfl
    · have : (1#16).getLsbD k = false := by interval_cases k <;> first | omega | decide
      simp [this]
  have ew : (u16le b0 b1 &&& ~~~(0x00ff#16) ||| n &&& 0x00ff#16) &&& ~~~(0x7f00#16) |||
      i.toU16 <<< 8 = (u16le b0 b1 &&& ~~~(0x7f00#16) ||| i.toU16 <<< 8) &&& ~~~(0x00ff#16) |||
        n &&& 0x00ff#16 := by
    apply BitVec.eq_of_getLsbD_eq
    intro k hk
    simp only [BitVec.getLsbD_and, BitVec.getLsbD_or, BitVec.getLsbD_not, BitVec.getLsbD_shiftLeft]
    interval_cases k <;> simp [-BitVec.getLsbD_eq_getElem]
  refine ⟨u16bytes ((u16le b0 b1 &&& ~~~(0x00ff#16) ||| n &&& 0x00ff#16) &&& ~~~(0x7f00#16) |||
      i.toU16 <<< 8) ++ l, ⟨_, by rw [NestedIe.setLength, updU16_cons], ?_⟩,
      ⟨_, by rw [NestedIe.setSubId, updU16_cons], ?_⟩, rfl, ?_⟩
  · rw [NestedIe.setSubId, updU16_u16bytes]
    simp only [NestedIe.lenMask, NestedIe.idMask, NestedIe.idBits, NestedSubId.isShort, if_true]
    rfl
  · rw [NestedIe.setLength, updU16_u16bytes, ew]
    simp only [NestedIe.lenMask, NestedIe.idMask, NestedIe.idBits, NestedSubId.isShort, if_true]
    rfl
  · have hl := e ((u16le b0 b1 &&& ~~~(0x00ff#16) ||| n &&& 0x00ff#16) &&& ~~~(0x7f00#16) |||
      i.toU16 <<< 8) (by
        simp only [BitVec.getLsbD_and, BitVec.getLsbD_or, BitVec.getLsbD_not,
          BitVec.getLsbD_shiftLeft, h15]
        simp [-BitVec.getLsbD_eq_getElem])
    refine ⟨by simp only [NestedIe.isLong, readU16_u16bytes, bind_ok, hl], ?_⟩
    simp only [NestedIe.subId, readU16_u16bytes, bind_ok, NestedIe.wSubId, hl, if_true]
    exact ⟨_, rfl⟩

/-- A buffer that held a channel hopping element before. -/
example : NestedIe.setSubId [0x01, 0xc8] (.short .tschSynchronization) = .ok [0x01, 0x9a] ∧
    NestedIe.subId [0x01, 0x9a] = .ok (.long .unkown) := by decide

/-- **C18**, the full property on cleared elements, for lengths that fit the written field. -/
def C18_statement : Prop :=
  ∀ (l d1 d2 : Bytes) (n : BitVec 16) (id : NestedSubId),
    n.toNat < (if id.isShort then 256 else 2048) →
    NestedIe.setLength (0 :: 0 :: l) n id = .ok d1 → NestedIe.setSubId d1 id = .ok d2 →
    NestedIe.length d2 = .ok n.toNat ∧ NestedIe.subId d2 = .ok id

/-- **C18** is false of the code: a short element of length 128 reads as length 0, and vendor
specific (0x40) reads as unknown. -/
theorem C18_false : ¬ C18_statement ∧
    (∃ d1 d2, NestedIe.setLength [0, 0] 3 (.short .vendorSpecific) = .ok d1 ∧
      NestedIe.setSubId d1 (.short .vendorSpecific) = .ok d2 ∧
      NestedIe.subId d2 = .ok (.short .unkown)) := by
  constructor
  · intro h
    have := (h [] [0x80, 0x00] [0x80, 0x1a] 128 (.short .tschSynchronization) (by decide)
      (by decide) (by decide)).1
    revert this; decide
  · exact ⟨[3, 0], [3, 0x40], by decide, by decide, by decide⟩

/-- **C18**, what holds (`_partial`: short lengths of 128 and more, long ones of 1024 and more
and the short ids 0x40, 0x46 are excluded). -/
theorem C18_fields_partial (b0 b1 : Byte) (l : Bytes) (n : BitVec 16) (id : NestedSubId)
    (hc : id.isShort = true → TypeClear b1)
    (hn : n.toNat < (if id.isShort then 128 else 1024))
    (hv : id ≠ .short .vendorSpecific) (hs : id ≠ .short .srm) :
    ∃ d, (∃ d1, NestedIe.setLength (b0 :: b1 :: l) n id = .ok d1 ∧ NestedIe.setSubId d1 id = .ok d) ∧
      (∃ d1, NestedIe.setSubId (b0 :: b1 :: l) id = .ok d1 ∧ NestedIe.setLength d1 n id = .ok d) ∧
      d.drop 2 = l ∧ NestedIe.length d = .ok n.toNat ∧ NestedIe.subId d = .ok id := by
  obtain ⟨d, h1, h2, h3, h4, h5, -⟩ := C18_fields b0 b1 l n id hc
  refine ⟨d, h1, h2, h3, ?_, h5 hv hs⟩
  rw [h4]
  split at hn <;> simp_all [Nat.mod_eq_of_lt]

/-- `is_long` reads bit 15 and agrees with the kind of the id returned; a header element is empty when
its length is zero. -/
theorem C18_kind (d : Bytes) (h : 2 ≤ d.length) :
    NestedIe.isLong d = .ok (decide (Spec.bits (Spec.desc d) 15 1 = 1)) ∧
    (∀ id, NestedIe.subId d = .ok id → NestedIe.isLong d = .ok (!id.isShort)) ∧
    ∀ n, HeaderIe.len d = .ok n → HeaderIe.isEmpty d = .ok (decide (n = 0)) := by
  refine ⟨by rw [NestedIe.isLong, desc_readU16 h, bind_ok, NestedIe.wLong_eq], ?_, ?_⟩
  · intro id hid
    rw [NestedIe.subId, desc_readU16 h, bind_ok, NestedIe.wSubId] at hid
    rw [NestedIe.isLong, desc_readU16 h, bind_ok]
    cases hw : NestedIe.wLong (Spec.desc d) <;> rw [hw] at hid <;> cases hid <;> rfl
  · intro n hn
    rw [HeaderIe.isEmpty, hn, bind_ok]
    congr 1

example : TypeClear 0 ∧ (127#16).toNat < 128 ∧
    (NestedSubId.short .tschTimeslot) ≠ .short .vendorSpecific := by
  refine ⟨by unfold TypeClear; decide, by decide, by decide⟩

end Dot15d4.Props
