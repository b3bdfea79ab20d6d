import Verif.Props.IeFields

/-! # C81: writing the content of an element in place -/

namespace Dot15d4.Props
open Out

/-- One of the three writers of elements, as far as its content is concerned: `content`, `content_mut`
and the two fields of the descriptor. -/
structure ElementApi where
  Id : Type
  id : Bytes → Out Id
  length : Bytes → Out Nat
  content : Bytes → Out Bytes
  contentMut : Bytes → (Bytes → Out Bytes) → Out Bytes

/-- `HeaderInformationElement`. -/
def headerElement : ElementApi :=
  ⟨_, HeaderIe.elementId, HeaderIe.len, HeaderIe.content, HeaderIe.contentMut⟩
/-- `PayloadInformationElement`. -/
def payloadElement : ElementApi :=
  ⟨_, PayloadIe.groupId, PayloadIe.length, PayloadIe.content, PayloadIe.contentMut⟩
/-- `NestedInformationElement`. -/
def nestedElement : ElementApi :=
  ⟨_, NestedIe.subId, NestedIe.length, NestedIe.content, NestedIe.contentMut⟩

/-- `element.content_mut()[..c.len()].copy_from_slice(c)`. -/
def writeContent (api : ElementApi) (d c : Bytes) : Out Bytes :=
  api.contentMut d fun s => modifyTo s c.length fun t => copyFromSlice t c

/-- What C81 says of one kind of element. -/
def WritesInPlace (api : ElementApi) : Prop :=
  -- fewer than two octets: a panic, whatever is written
  (∀ d f, d.length < 2 → api.contentMut d f = .panic) ∧
  (∀ (b0 b1 : Byte) (l : Bytes),
    -- what is handed out begins with the content and reaches to the end of the buffer; the descriptor
    -- stays as it is
    (∀ f, api.contentMut (b0 :: b1 :: l) f = (f l >>= fun l' => .ok (b0 :: b1 :: l'))) ∧
    (∀ l', api.id (b0 :: b1 :: l') = api.id (b0 :: b1 :: l) ∧
      api.length (b0 :: b1 :: l') = api.length (b0 :: b1 :: l)) ∧
    ∃ n, api.length (b0 :: b1 :: l) = .ok n ∧
      api.content (b0 :: b1 :: l) = (if n ≤ l.length then .ok (l.take n) else .panic) ∧
      -- writing as much as the length field says is read back, and leaves what follows alone
      (∀ c : Bytes, c.length = n → n ≤ l.length → ∃ d, writeContent api (b0 :: b1 :: l) c = .ok d ∧
        api.content d = .ok c ∧ api.length d = .ok n ∧ api.id d = api.id (b0 :: b1 :: l) ∧
        d.length = (b0 :: b1 :: l).length ∧ d.drop (2 + n) = (b0 :: b1 :: l).drop (2 + n)) ∧
      -- copying the content into all of `content_mut()` panics unless the element ends the buffer
      (∀ c : Bytes, c.length = n →
        (api.contentMut (b0 :: b1 :: l) (fun t => copyFromSlice t c) = .panic ↔ l.length ≠ n)))

theorem writesInPlace (api : ElementApi) {wLen : BitVec 16 → Nat} {wId : BitVec 16 → api.Id}
    (h1 : ∀ d, api.length d = (readU16 d >>= fun w => .ok (wLen w)))
    (h2 : ∀ d, api.id d = (readU16 d >>= fun w => .ok (wId w)))
    (h3 : ∀ d, api.content d = (sliceFrom d 2 >>= fun s => api.length d >>= fun n => sliceTo s n))
    (h4 : ∀ d f, api.contentMut d f = modifyFrom d 2 f) : WritesInPlace api := by
  have hm : ∀ (b0 b1 : Byte) (l : Bytes) f, api.contentMut (b0 :: b1 :: l) f =
      (f l >>= fun l' => .ok (b0 :: b1 :: l')) := by
    intro b0 b1 l f
    rw [h4, modifyFrom, sliceFrom_ok (by simp)]
    rfl
  have hc : ∀ (b0 b1 : Byte) (l : Bytes), api.content (b0 :: b1 :: l) =
      if wLen (u16le b0 b1) ≤ l.length then .ok (l.take (wLen (u16le b0 b1))) else .panic := by
    intro b0 b1 l
    rw [h3, h1, sliceFrom_ok (by simp), readU16_cons]
    rfl
  refine ⟨?_, ?_⟩
  · intro d f hd
    rw [h4, modifyFrom, sliceFrom, if_neg (by omega)]
    rfl
  · intro b0 b1 l
    refine ⟨hm b0 b1 l, ?_, wLen (u16le b0 b1), ?_, hc b0 b1 l, ?_, ?_⟩
    · intro l'
      rw [h1, h1, h2, h2, readU16_cons, readU16_cons]
      exact ⟨rfl, rfl⟩
    · rw [h1, readU16_cons]; rfl
    · intro c hn hle
      refine ⟨b0 :: b1 :: (c ++ l.drop c.length), ?_, ?_, ?_, ?_, ?_, ?_⟩
      · rw [writeContent, hm, modifyTo, sliceTo, if_pos (by omega), bind_ok, copyFromSlice,
          if_pos (by simp; omega)]
        rfl
      · rw [hc, ← hn, if_pos (by simp), List.take_left]
      · rw [h1, readU16_cons]; rfl
      · rw [h2, h2, readU16_cons, readU16_cons]
      · simp; omega
      · rw [Nat.add_comm 2, List.drop_succ_cons, List.drop_succ_cons, List.drop_succ_cons,
          List.drop_succ_cons, ← hn, List.drop_left]
    · intro c hn
      rw [hm, copyFromSlice, ← hn]
      by_cases h : l.length = c.length <;> simp [h]

/-- **C81**.  For every header, payload and nested element in any buffer: writing through
`content_mut` never changes the descriptor, so id and length stay; writing the number of octets the
length field announces at its front is read back by `content`, and everything behind the element is
left alone; but `content_mut` hands out the whole rest of the buffer, which is the content only when
the element is the last thing in it. -/
theorem C81_content_mut : WritesInPlace headerElement ∧ WritesInPlace payloadElement ∧
    WritesInPlace nestedElement :=
  ⟨writesInPlace headerElement (fun _ => rfl) (fun _ => rfl) (fun _ => rfl) (fun _ _ => rfl),
    writesInPlace payloadElement (fun _ => rfl) (fun _ => rfl) (fun _ => rfl) (fun _ _ => rfl),
    writesInPlace nestedElement (fun _ => rfl) (fun _ => rfl) (fun _ => rfl) (fun _ _ => rfl)⟩

/-- **C81**, a whole element: in any buffer that is long enough, setting the length and the id and
writing the content of a payload element makes its bytes those of the element, and leaves the octets
behind it as they were. -/
theorem C81_payload_element (b0 b1 : Byte) (l c : Bytes) (id : PayloadGroupId)
    (hid : id = .esdu ∨ id = .mlme ∨ id = .vendorSpecific) (hc : c.length < 1024)
    (hl : c.length ≤ l.length) :
    ∃ d1 d2 d, PayloadIe.setLength (b0 :: b1 :: l) (BitVec.ofNat 16 c.length) = .ok d1 ∧
      PayloadIe.setGroupId d1 id = .ok d2 ∧ writeContent payloadElement d2 c = .ok d ∧
      PayloadIe.length d = .ok c.length ∧ PayloadIe.groupId d = .ok id ∧
      PayloadIe.content d = .ok c ∧ d.drop (2 + c.length) = l.drop c.length := by
  obtain ⟨d1, d2, e1, e2, e3, e4, e5, -⟩ := C17_fields b0 b1 l (BitVec.ofNat 16 c.length) id
  have hn : (BitVec.ofNat 16 c.length).toNat % 1024 = c.length := by
    rw [BitVec.toNat_ofNat]; omega
  rw [hn] at e4
  obtain ⟨x0, x1, l2, rfl⟩ : ∃ x0 x1 l2, d2 = x0 :: x1 :: l2 := by
    match d2, e4 with
    | [], h => cases h
    | [_], h => cases h
    | x0 :: x1 :: l2, _ => exact ⟨x0, x1, l2, rfl⟩
  obtain rfl : l2 = l := e3
  obtain ⟨-, -, n, g1, -, g2, -⟩ := C81_content_mut.2.1.2 x0 x1 l2
  rw [show payloadElement.length (x0 :: x1 :: l2) = _ from e4] at g1
  cases g1
  obtain ⟨d, k1, k2, k3, k4, -, k6⟩ := g2 c rfl hl
  refine ⟨d1, _, d, e1, e2, k1, k3, k4.trans (e5 hid), k2, ?_⟩
  rw [k6, Nat.add_comm 2, List.drop_succ_cons, List.drop_succ_cons]

/-- **C81**, a whole header element, of an even id and an even length below 128 (the others cannot be
written, C16). -/
theorem C81_header_element (b0 b1 : Byte) (l c : Bytes) (id : HeaderElementId)
    (hid : odd id = false) (hc : c.length < 128) (he : c.length % 2 = 0)
    (hl : c.length ≤ l.length) :
    ∃ d1 d2 d, HeaderIe.setLength (b0 :: b1 :: l) (BitVec.ofNat 16 c.length) = .ok d1 ∧
      HeaderIe.setElementId d1 id = .ok d2 ∧ writeContent headerElement d2 c = .ok d ∧
      HeaderIe.len d = .ok c.length ∧ HeaderIe.elementId d = .ok id ∧
      headerElement.content d = .ok c ∧ d.drop (2 + c.length) = l.drop c.length := by
  obtain ⟨d1, d2, e1, e2, e3, e5, e4⟩ := C16_length_then_id b0 b1 l (BitVec.ofNat 16 c.length) id
  have hn : (BitVec.ofNat 16 c.length).toNat % 128 / 2 * 2 + 128 * (odd id).toNat = c.length := by
    rw [BitVec.toNat_ofNat, hid]
    simp only [Bool.toNat_false]
    omega
  rw [hn] at e4
  obtain ⟨x0, x1, l2, rfl⟩ : ∃ x0 x1 l2, d2 = x0 :: x1 :: l2 := by
    match d2, e4 with
    | [], h => cases h
    | [_], h => cases h
    | x0 :: x1 :: l2, _ => exact ⟨x0, x1, l2, rfl⟩
  obtain rfl : l2 = l := e3
  obtain ⟨-, -, n, g1, -, g2, -⟩ := C81_content_mut.1.2 x0 x1 l2
  rw [show headerElement.length (x0 :: x1 :: l2) = _ from e4] at g1
  cases g1
  obtain ⟨d, k1, k2, k3, k4, -, k6⟩ := g2 c rfl hl
  refine ⟨d1, _, d, e1, e2, k1, k3, k4.trans e5, k2, ?_⟩
  rw [k6, Nat.add_comm 2, List.drop_succ_cons, List.drop_succ_cons]

/-- **C81**, a whole nested element, in a buffer whose type bit is clear when a short one is written. -/
theorem C81_nested_element (b0 b1 : Byte) (l c : Bytes) (id : NestedSubId)
    (ht : id.isShort = true → TypeClear b1) (hv : id ≠ .short .vendorSpecific)
    (hs : id ≠ .short .srm) (hc : c.length < if id.isShort then 128 else 1024)
    (hl : c.length ≤ l.length) :
    ∃ d1 d2 d, NestedIe.setLength (b0 :: b1 :: l) (BitVec.ofNat 16 c.length) id = .ok d1 ∧
      NestedIe.setSubId d1 id = .ok d2 ∧ writeContent nestedElement d2 c = .ok d ∧
      NestedIe.length d = .ok c.length ∧ NestedIe.subId d = .ok id ∧
      nestedElement.content d = .ok c ∧ d.drop (2 + c.length) = l.drop c.length := by
  obtain ⟨d2, ⟨d1, e1, e2⟩, -, e3, e4, e5, -⟩ := C18_fields b0 b1 l (BitVec.ofNat 16 c.length) id ht
  have hn : (if id.isShort then (BitVec.ofNat 16 c.length).toNat % 128
      else (BitVec.ofNat 16 c.length).toNat % 1024) = c.length := by
    rw [BitVec.toNat_ofNat]
    split at hc
    · rename_i h; rw [if_pos h]; omega
    · rename_i h; rw [if_neg h]; omega
  rw [hn] at e4
  obtain ⟨x0, x1, l2, rfl⟩ : ∃ x0 x1 l2, d2 = x0 :: x1 :: l2 := by
    match d2, e4 with
    | [], h => cases h
    | [_], h => cases h
    | x0 :: x1 :: l2, _ => exact ⟨x0, x1, l2, rfl⟩
  obtain rfl : l2 = l := e3
  obtain ⟨-, -, n, g1, -, g2, -⟩ := C81_content_mut.2.2.2 x0 x1 l2
  rw [show nestedElement.length (x0 :: x1 :: l2) = _ from e4] at g1
  cases g1
  obtain ⟨d, k1, k2, k3, k4, -, k6⟩ := g2 c rfl hl
  refine ⟨d1, _, d, e1, e2, k1, k3, k4.trans (e5 hv hs), k2, ?_⟩
  rw [k6, Nat.add_comm 2, List.drop_succ_cons, List.drop_succ_cons]

/-- Non-vacuity: an MLME group of two octets, written over old bytes, in front of another element. -/
example : (do
    let d ← PayloadIe.setLength [0xff, 0x07, 9, 9, 0x00, 0xf8] 2
    let d ← PayloadIe.setGroupId d .mlme
    writeContent payloadElement d [1, 2]) = .ok [2, 0x88, 1, 2, 0x00, 0xf8] := by decide

/-- A header element in front of another: `content_mut()` reaches into the next one. -/
example : HeaderIe.content [0x02, 0x0f, 1, 2, 0x00, 0x3f] = .ok [1, 2] ∧
    HeaderIe.contentMut [0x02, 0x0f, 1, 2, 0x00, 0x3f] (fun s => .ok (s.map fun _ => 0)) =
      .ok [0x02, 0x0f, 0, 0, 0, 0] ∧
    headerElement.contentMut [0x02, 0x0f, 1, 2, 0x00, 0x3f] (fun t => copyFromSlice t [3, 4]) =
      .panic := by decide

example : (do
    let d ← NestedIe.setLength [0, 0, 9, 9, 7] 2 (.short .tschTimeslot)
    let d ← NestedIe.setSubId d (.short .tschTimeslot)
    writeContent nestedElement d [1, 2]) = .ok [2, 0x1c, 1, 2, 7] := by decide

end Dot15d4.Props
