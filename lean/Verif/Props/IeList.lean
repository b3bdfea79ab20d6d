import Verif.Lemmas.Ie

namespace Dot15d4.Props
open Out InformationElements

/-! # C15, C19: iterating information elements -/

/-- The element id the standard assigns to a descriptor word, bits 7-14. -/
def headerIdOf (c : Bytes) : HeaderElementId :=
  .ofU8 (BitVec.ofNat 8 (Spec.bits (Spec.desc c) 7 8))
/-- The group id as the code reads it, bits 11-13. -/
def groupIdOf (c : Bytes) : PayloadGroupId :=
  .ofU8 (BitVec.ofNat 8 (Spec.bits (Spec.desc c) 11 3))

/-- `items` are readers for exactly the header elements `cs`: same ids, lengths and contents. -/
def ReadsHeader (items : List HeaderIe) (cs : List Bytes) : Prop :=
  items.map HeaderIe.content = cs.map (fun c => .ok (c.drop 2)) ∧
  items.map HeaderIe.len = cs.map (fun c => .ok (c.length - 2)) ∧
  items.map HeaderIe.elementId = cs.map (fun c => .ok (headerIdOf c))

/-- Likewise for payload elements. -/
def ReadsPayload (items : List PayloadIe) (cs : List Bytes) : Prop :=
  items.map PayloadIe.content = cs.map (fun c => .ok (c.drop 2)) ∧
  items.map PayloadIe.length = cs.map (fun c => .ok (c.length - 2)) ∧
  items.map PayloadIe.groupId = cs.map (fun c => .ok (groupIdOf c))

private theorem wId_eq (w : BitVec 16) :
    HeaderIe.wId w = .ofU8 (BitVec.ofNat 8 (Spec.bits w 7 8)) := by
  have h := bits_shift_mask w 7 8 (by decide)
  rw [HeaderIe.wId, ← h]
  congr 1

private theorem pId_eq (w : BitVec 16) :
    PayloadIe.wId w = .ofU8 (BitVec.ofNat 8 (Spec.bits w 11 3)) := by
  have h := bits_shift_mask w 11 3 (by decide)
  rw [PayloadIe.wId, ← h]
  congr 1

theorem readsHeader {l : List Bytes} (h2 : ∀ t ∈ l, 2 ≤ t.length)
    (h : ∀ t ∈ l, Spec.headerLen (Spec.desc t) + 2 ≤ t.length) :
    ReadsHeader l (l.map (ieChunk Spec.headerLen)) := by
  refine ⟨?_, ?_, ?_⟩ <;> rw [List.map_map] <;> apply List.map_congr_left <;> intro t ht <;>
    have a := h2 t ht <;> have b := h t ht
  · simp only [HeaderIe.content, HeaderIe.len, desc_readU16 a, bind_ok, sliceFrom_ok a,
      HeaderIe.wLen_eq, Function.comp]
    rw [sliceTo_ok (by rw [List.length_drop]; omega), ieChunk]
    congr 1
    rw [List.drop_take]; rfl
  · simp only [HeaderIe.len, desc_readU16 a, bind_ok, HeaderIe.wLen_eq, Function.comp,
      ieChunk_length b, Nat.add_sub_cancel]
  · simp only [HeaderIe.elementId, desc_readU16 a, bind_ok, Function.comp, headerIdOf, wId_eq]
    rw [ieChunk, desc_take (by omega)]

theorem readsPayload {l : List Bytes} (h2 : ∀ t ∈ l, 2 ≤ t.length)
    (h : ∀ t ∈ l, Spec.payloadLen (Spec.desc t) + 2 ≤ t.length) :
    ReadsPayload l (l.map (ieChunk Spec.payloadLen)) := by
  refine ⟨?_, ?_, ?_⟩ <;> rw [List.map_map] <;> apply List.map_congr_left <;> intro t ht <;>
    have a := h2 t ht <;> have b := h t ht
  · simp only [PayloadIe.content, PayloadIe.length, desc_readU16 a, bind_ok, sliceFrom_ok a,
      PayloadIe.wLen_eq, Function.comp]
    rw [sliceTo_ok (by rw [List.length_drop]; omega), ieChunk]
    congr 1
    rw [List.drop_take]; rfl
  · simp only [PayloadIe.length, desc_readU16 a, bind_ok, PayloadIe.wLen_eq, Function.comp,
      ieChunk_length b, Nat.add_sub_cancel]
  · simp only [PayloadIe.groupId, desc_readU16 a, bind_ok, Function.comp, groupIdOf, pId_eq]
    rw [ieChunk, desc_take (by omega)]

/-- **C15**.  `InformationElements::new` is total. -/
theorem C15_new_total (d : Bytes) : Out.Returns (InformationElements.new d) := by
  rw [new_eq]; split <;> simp

/-- **C15**.  If `InformationElements::new` accepts the bytes, they are the concatenation of
complete header elements `hs`, complete payload elements `ps` and a remainder of at most one
byte; running either iterator terminates, without panic, having produced exactly these elements
in order with their contents; `len()` is their total size.  A header element other than the last
is never a termination, and there are payload elements only after a termination. -/
theorem C15_partition (d ie : Bytes) (h : InformationElements.new d = .ok ie) :
    ie = d ∧ ∃ (hs ps : List Bytes) (rest : Bytes) (hi : List HeaderIe) (pi : List PayloadIe)
      (hEnd pEnd : IeIter),
      d = hs.flatten ++ (ps.flatten ++ rest) ∧ rest.length < 2 ∧
      (∀ c ∈ hs, Spec.Complete Spec.headerLen c) ∧
      (∀ c ∈ ps, Spec.Complete Spec.payloadLen c) ∧
      headerDrain ie = .ok (hi, hEnd) ∧ headerNext hEnd = .ok (none, hEnd) ∧
      payloadDrain ie = .ok (pi, pEnd) ∧ payloadNext pEnd = .ok (none, pEnd) ∧
      ReadsHeader hi hs ∧ ReadsPayload pi ps ∧
      InformationElements.len ie = .ok (hs.flatten.length + ps.flatten.length) ∧
      (∀ c ∈ hs.dropLast, Spec.headerStop (Spec.desc c) = false) ∧
      (ps ≠ [] → ∃ c, hs.getLast? = some c ∧ Spec.headerStop (Spec.desc c) = true) := by
  rw [new_eq] at h
  split at h <;> cases h
  rename_i hle
  refine ⟨rfl, ?_⟩
  have hhle : hS d ≤ d.length := by omega
  have hple : pS d ≤ (d.drop (hS d)).length := by rw [List.length_drop]; omega
  obtain ⟨hEnd, a1, a2, a3⟩ := headerDrain_eq d
  obtain ⟨pEnd, b1, b2, b3⟩ := payloadDrain_eq d hhle
  obtain ⟨c1, c2⟩ := ieTails_split Spec.headerLen Spec.headerStop d hhle
  obtain ⟨e1, e2⟩ := ieTails_split Spec.payloadLen (fun _ => false) (d.drop (hS d)) hple
  refine ⟨(hT d).map (ieChunk Spec.headerLen), (pT d).map (ieChunk Spec.payloadLen),
    (d.drop (hS d)).drop (pS d), hT d, pT d, hEnd, pEnd, ?_, ?_, ?_, ?_, a1, a3, b1, b3, ?_, ?_,
    ?_, ?_, ?_⟩
  · conv => lhs; rw [c1]
    congr 1
  · rcases ieTails_end Spec.payloadLen (fun _ => false) (d.drop (hS d)) hple with h | ⟨t, -, h⟩
    · exact h
    · exact absurd h (by simp)
  · intro c hc
    obtain ⟨t, ht, rfl⟩ := List.mem_map.mp hc
    exact ieChunk_complete (c2 t ht)
  · intro c hc
    obtain ⟨t, ht, rfl⟩ := List.mem_map.mp hc
    exact ieChunk_complete (e2 t ht)
  · exact readsHeader (fun t ht => mem_ieTails ht) c2
  · exact readsPayload (fun t ht => mem_ieTails ht) e2
  · rw [len_eq d hhle, ← ieSize_chunks _ (hT d) c2, ← ieSize_chunks _ (pT d) e2]; rfl
  · intro c hc
    rw [← List.map_dropLast] at hc
    obtain ⟨t, ht, rfl⟩ := List.mem_map.mp hc
    have := ieTails_dropLast Spec.headerLen Spec.headerStop d t ht
    rwa [ieChunk, desc_take (by omega)]
  · intro hne
    rcases ieTails_end Spec.headerLen Spec.headerStop d hhle with h | ⟨t, h1, h2⟩
    · exfalso
      apply hne
      have : pT d = [] := by
        rw [pT, ieTails, if_neg]
        have : (d.drop (hS d)).length < 2 := h
        omega
      simp [this]
    · refine ⟨ieChunk Spec.headerLen t, ?_, ?_⟩
      · rw [List.getLast?_map]
        have : (hT d).getLast? = some t := h1
        rw [this]; rfl
      · rwa [ieChunk, desc_take (by omega)]

/-- The hypothesis is met by a time correction, a header termination 1 and an MLME element with
one byte of content. -/
example : InformationElements.new [0x02, 0x0f, 0x34, 0x82, 0x00, 0x3f, 0x01, 0x88, 0x07] =
    .ok [0x02, 0x0f, 0x34, 0x82, 0x00, 0x3f, 0x01, 0x88, 0x07] := by
  rw [new_eq, if_pos]
  simp [hS, pS, hT, pT, ieTails, ieSize, Spec.desc, Spec.headerLen, Spec.payloadLen,
    Spec.headerStop, Spec.bits, u16le]

/-- **C19**.  Iterating the nested elements of any content terminates without panic; the items
are consecutive complete elements from the start of the content, each with a readable id and
content, and iteration stops only where no complete element remains. -/
theorem C19_nested_iteration (c : Bytes) :
    ∃ (items : List NestedIe) (e : IeIter) (rest : Bytes),
      drain nestedNext (c.length + 1) (nestedIter c) = .ok (items, e) ∧
      nestedNext e = .ok (none, e) ∧
      c = items.flatten ++ rest ∧
      (rest.length < 2 ∨ rest.length < Spec.nestedLen (Spec.desc rest) + 2) ∧
      ∀ i ∈ items, Spec.Complete Spec.nestedLen i ∧ NestedIe.content i = .ok (i.drop 2) ∧
        NestedIe.length i = .ok (List.length i - 2) ∧ Out.Returns (NestedIe.subId i) := by
  obtain ⟨e, h1, h2⟩ := drain_nested (c.length + 1) (nestedIter c) (by simp [nestedIter])
    (by simp [nestedIter])
  obtain ⟨rest, h3, h4, h5⟩ := nestedChunks_spec c
  refine ⟨nestedChunks c, e, rest, by simpa [nestedIter] using h1, h2, h3, h5, ?_⟩
  intro i hi
  have hc := h4 i hi
  refine ⟨hc, ?_, ?_, ?_⟩
  · simp only [NestedIe.content, NestedIe.length, desc_readU16 hc.1, bind_ok, sliceFrom_ok hc.1,
      NestedIe.wLen_eq]
    have := hc.2
    rw [sliceTo_ok (by rw [List.length_drop]; omega), List.take_of_length_le]
    rw [List.length_drop]; omega
  · have := hc.2
    simp only [NestedIe.length, desc_readU16 hc.1, bind_ok, NestedIe.wLen_eq]
    congr 1; omega
  · simp [NestedIe.subId, desc_readU16 hc.1]

/-- **C19**.  The nested iterator of a payload element is available exactly for the MLME group
(the method asserts it). -/
theorem C19_nested_only_mlme (d : PayloadIe) (g : PayloadGroupId) (c : Bytes)
    (hg : d.groupId = .ok g) (hc : d.content = .ok c) :
    d.nestedIter = if g = .mlme then .ok (nestedIter c) else .panic := by
  simp [PayloadIe.nestedIter, hg, hc]

example : PayloadIe.nestedIter [0x02, 0x88, 0x00, 0x1a] = .ok (nestedIter [0x00, 0x1a]) ∧
    PayloadIe.nestedIter [0x02, 0x80, 0x00, 0x1a] = .panic :=
  ⟨C19_nested_only_mlme [0x02, 0x88, 0x00, 0x1a] .mlme _ rfl rfl,
    C19_nested_only_mlme [0x02, 0x80, 0x00, 0x1a] .esdu _ rfl rfl⟩

/-- Readers for elements that follow each other in `d` from position `a` on, up to position `b`. -/
inductive Consecutive (len : BitVec 16 → Nat) (d : Bytes) : Nat → List Bytes → Nat → Prop
  | nil (a : Nat) : Consecutive len d a [] a
  | cons (a : Nat) (l : List Bytes) (b : Nat) :
      Consecutive len d (a + (len (Spec.desc (d.drop a)) + 2)) l b →
      Consecutive len d a (d.drop a :: l) b

theorem consecutive_ie {len stop next} (H : IsIeNext len stop next) (k : Nat) (s : IeIter)
    (hoff : s.terminated = false → s.offset ≤ s.data.length) :
    ∃ items s', drain next k s = .ok (items, s') ∧
      Consecutive len s.data s.offset items s'.offset := by
  induction k generalizing s with
  | zero => exact ⟨[], s, rfl, .nil _⟩
  | succ k ih =>
    cases ht : s.terminated with
    | true => exact ⟨[], s, by simp [drain, H.term s ht], .nil _⟩
    | false =>
      by_cases h2 : 2 ≤ (s.data.drop s.offset).length
      · have hs := H.step s ht h2
        obtain ⟨items, s', h1, h3⟩ := ih ⟨s.data,
          s.offset + (len (Spec.desc (s.data.drop s.offset)) + 2),
          if s.offset + (len (Spec.desc (s.data.drop s.offset)) + 2) ≥ s.data.length then true
            else stop (Spec.desc (s.data.drop s.offset))⟩
          (by intro h; simp only at h ⊢; split at h <;> simp_all; omega)
        exact ⟨_, s', by simp only [drain, hs, bind_ok, h1], .cons _ _ _ h3⟩
      · obtain ⟨s', h1, h3, -⟩ := H.short s ht (hoff ht) (by omega)
        refine ⟨[], s', by simp [drain, h1], ?_⟩
        rw [h3]; exact .nil _

/-- **C15**, `offset()`: however many header or payload elements have been taken from the iterator
over any bytes, none of the calls panicked, the readers returned begin one after the other, each where
the announced length of the one before ends, and `offset()` is where the next one would begin. -/
theorem C15_offset (d : Bytes) (k : Nat) :
    (∃ items it, drain headerNext k ⟨d, 0, false⟩ = .ok (items, it) ∧
      Consecutive Spec.headerLen d 0 items it.offset) ∧
    (∃ items it, drain payloadNext k ⟨d, 0, false⟩ = .ok (items, it) ∧
      Consecutive Spec.payloadLen d 0 items it.offset) :=
  ⟨consecutive_ie isIeNext_header k ⟨d, 0, false⟩ (by simp),
    consecutive_ie isIeNext_payload k ⟨d, 0, false⟩ (by simp)⟩

/-- Two elements, of four and two bytes; the iterator then stands at six. -/
example : drain headerNext 2 ⟨[0x02, 0x00, 0xaa, 0xbb, 0x00, 0x3f, 0x55], 0, false⟩ =
    .ok ([[0x02, 0x00, 0xaa, 0xbb, 0x00, 0x3f, 0x55], [0x00, 0x3f, 0x55]],
      ⟨[0x02, 0x00, 0xaa, 0xbb, 0x00, 0x3f, 0x55], 6, true⟩) := by decide

end Dot15d4.Props
