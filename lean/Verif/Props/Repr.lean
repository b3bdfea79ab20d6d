import Verif.Lemmas.ReprElements

/-! # C30 (and the default timeslot of C22): emitting information elements -/

namespace Dot15d4.Props
open Out Spec

/-- **C30**, single header elements: `emit` into a buffer of `buffer_len()` bytes (whatever it
contained) writes the element of the standard, of that length; reading it, followed by anything,
gives the same representation.  (Header termination 2 is the exception, see below.) -/
theorem C30_header_element (x : HeaderIeRepr) (h : HeaderOk x ∨ x = .headerTermination1) (b q : Bytes)
    (hb : b.length = x.bufferLen) :
    x.emit b = .ok (encodeHeader x) ∧ (encodeHeader x).length = x.bufferLen ∧
    HeaderIeRepr.parse (encodeHeader x ++ q) = .ok x :=
  ⟨emit_header x b hb, encodeHeader_length x, parse_header x h q⟩

example : HeaderIeRepr.parse (encodeHeader (.timeCorrection ⟨⟨5⟩, true⟩) ++ [1, 2]) =
    .ok (.timeCorrection ⟨⟨5⟩, true⟩) :=
  (C30_header_element (.timeCorrection ⟨⟨5⟩, true⟩)
    (.inl (show (-2048 : Int) ≤ _ ∧ _ ≤ (2047 : Int) by decide)) [0, 0, 0, 0] [1, 2] rfl).2.2

/-- **C30**, single nested elements. -/
theorem C30_nested_element (x : NestedIeRepr) (h : NestedOk x) (b : Bytes)
    (hb : b.length = x.bufferLen) :
    x.emit b = .ok (encodeNested x) ∧ (encodeNested x).length = x.bufferLen ∧
    NestedIeRepr.parse (encodeNested x) = .ok x :=
  ⟨emit_nested x h b hb, encodeNested_length x h, parse_nested x h⟩

/-- **C30**, single payload elements (MLME, of any number of nested elements up to the capacity). -/
theorem C30_payload_element (x : PayloadIeRepr) (h : PayloadOk x) (b q : Bytes)
    (hb : b.length = x.bufferLen) :
    x.emit b = .ok (encodePayload x) ∧ (encodePayload x).length = x.bufferLen ∧
    PayloadIeRepr.parse (encodePayload x ++ q) = .ok x :=
  ⟨emit_payload x h b hb, encodePayload_length x h, parse_payload x h q⟩

/-- **C30**, whole lists, emission.  Into any buffer with at least `buffer_len()` bytes, `emit`
writes exactly the octets the standard prescribes, `buffer_len()` many, terminations included, and
leaves the rest alone.  Missing: payload elements followed by a frame payload (they panic, see
`C30_payload_termination_panics`). -/
theorem C30_emit_partial (r : InformationElementsRepr) (framePayload : Bool) (ho : ElementsOk r)
    (hp : framePayload = false ∨ r.payload = []) (b : Bytes)
    (hb : r.bufferLen framePayload ≤ b.length) :
    r.emit b framePayload =
      .ok (encodeElements r framePayload ++ b.drop (encodeElements r framePayload).length) ∧
    (encodeElements r framePayload).length = r.bufferLen framePayload := by
  obtain ⟨h1, h2⟩ := emit_elements r framePayload ho hp b hb
  exact ⟨by rw [h1, h2], h2⟩

/-- **C30**, whole lists, round trip without frame payload: the emitted octets are accepted by
`InformationElements::new` and parsed to the same lists, the header list having gained the
termination the standard requires (unless it already fills the `Vec` of 16). -/
theorem C30_roundtrip_partial (r : InformationElementsRepr) (ho : ElementsOk r) (b : Bytes)
    (hb : b.length = r.bufferLen false) : ∃ d,
    r.emit b false = .ok d ∧ d.length = r.bufferLen false ∧
    InformationElements.new d = .ok d ∧
    InformationElementsRepr.parse d = .ok ⟨
      if r.payload = [] then r.header
      else (r.header ++ [HeaderIeRepr.headerTermination1]).take 16, r.payload⟩ := by
  obtain ⟨h1, h2⟩ := emit_elements r false ho (.inl rfl) b (by omega)
  obtain ⟨h3, h4, -⟩ := parse_elements r ho
  refine ⟨_, ?_, h2, h3, ?_⟩
  · rw [h1, List.drop_of_length_le (by omega), List.append_nil]
  · rw [h4, reread]
    obtain ⟨h, pl⟩ := r
    split <;> simp_all

/-- The standard's default timings, with a long maximum transmission time. -/
def exampleTimings : TschTimeslotTimings where
  id := 1
  ccaOffset := ⟨1800⟩
  cca := ⟨128⟩
  txOffset := ⟨2120⟩
  rxOffset := ⟨1020⟩
  rxAckDelay := ⟨800⟩
  txAckDelay := ⟨1000⟩
  rxWait := ⟨2200⟩
  ackWait := ⟨400⟩
  rxTx := ⟨192⟩
  maxAck := ⟨2400⟩
  maxTx := ⟨65536⟩
  timeslotLength := ⟨10000⟩

/-- A list of elements of every kind meets the hypotheses. -/
def exampleElements : InformationElementsRepr where
  header := [.timeCorrection ⟨⟨BitVec.ofInt 64 (-31)⟩, true⟩, .timeCorrection ⟨⟨2047⟩, false⟩]
  payload := [.mlme [
    .tschSynchronization ⟨0xffffffffff, 3⟩,
    .tschTimeslot (.default 0),
    .tschTimeslot (.custom exampleTimings),
    .tschSlotframeAndLink ⟨[⟨1, 7, [⟨0, 0, 0x0f⟩, ⟨3, 2, 0x10⟩]⟩, ⟨2, 101, [⟨9, 1, 1⟩]⟩]⟩,
    .channelHopping ⟨0⟩], .mlme []]

example : ElementsOk exampleElements := by decide
example : exampleElements.bufferLen false = 83 := by decide

/-- The example is emitted and read back: the kernel evaluates the model. -/
example : (do
    let d ← exampleElements.emit (List.replicate 83 0xff#8) false
    InformationElementsRepr.parse d) =
    .ok { exampleElements with
      header := exampleElements.header ++ [HeaderIeRepr.headerTermination1] } := by decide +kernel

/-- C30 is false when a frame payload follows, (1): with payload elements, `emit` panics
(`todo!()` for the payload termination element), for every list and every buffer. -/
theorem C30_payload_termination_panics (r : InformationElementsRepr) (ho : ElementsOk r)
    (hp : r.payload ≠ []) (b : Bytes) (hb : r.bufferLen true ≤ b.length) :
    r.emit b true = .panic := by
  obtain ⟨h, pl⟩ := r
  have ht : ∀ q, InformationElementsRepr.terminations ⟨h, pl⟩ q = (true, false, q) := by
    intro q
    cases pl with
    | nil => exact absurd rfl hp
    | cons x xs => cases h <;> cases q <;> rfl
  have hl : InformationElementsRepr.bufferLen ⟨h, pl⟩ true =
      InformationElementsRepr.bufferLen ⟨h, pl⟩ false + 2 := by
    simp [InformationElementsRepr.bufferLen, ht, PayloadIeRepr.bufferLen, PayloadIeRepr.innerLen]
  obtain ⟨e, e'⟩ := emit_elements ⟨h, pl⟩ false ho (.inl rfl) b (by omega)
  simp only [InformationElementsRepr.emit, ht, InformationElementsRepr.emitIf, Bool.false_eq_true,
    if_false, if_true] at e ⊢
  obtain ⟨p1, a1, e⟩ := bind_eq_ok.mp e
  obtain ⟨p2, a2, e⟩ := bind_eq_ok.mp e
  simp only [bind_ok] at e
  obtain ⟨p3, a3, e⟩ := bind_eq_ok.mp e
  simp only [a1, a2, a3, bind_ok]
  suffices hpan : modifyAt p3.1 p3.2 2 PayloadIeRepr.payloadTermination.emit = .panic by
    rw [hpan]; rfl
  rw [modifyAt, modifyFrom, sliceFrom]
  split
  · simp only [bind_ok, modifyTo]
    by_cases h2 : 2 ≤ (p3.1.drop p3.2).length
    · rw [sliceTo_ok h2]
      obtain ⟨x, y, l, hxy⟩ := exists_cons2 h2
      rw [hxy]
      simp only [bind_ok]
      rw [show PayloadIeRepr.payloadTermination.emit (List.take 2 (x :: y :: l)) = .panic by
        simp [PayloadIeRepr.emit, PayloadIe.clear, List.replicate, PayloadIe.setLength,
          PayloadIe.setGroupId, u16bytes, modifyFrom, sliceFrom, PayloadIeRepr.emitContent]]
      rfl
    · rw [sliceTo, if_neg h2]; rfl
  · rfl

example : InformationElementsRepr.emit ⟨[], [.mlme []]⟩ [0, 0, 0, 0, 0, 0] true = .panic := by decide

/-- C30 is false when a frame payload follows, (2): header elements alone are closed by header
termination 2, which the reader takes for an element of 128 octets: with fewer octets following,
the emitted list is rejected. -/
theorem C30_header_termination2_unreadable (l : List HeaderIeRepr) (hl : l ≠ [])
    (ho : ElementsOk ⟨l, []⟩) (payload : Bytes) (hp : payload.length < 128) :
    InformationElements.new (encodeElements ⟨l, []⟩ true ++ payload) = .err := by
  obtain ⟨-, -, hh, -⟩ := ho
  have e : encodeElements ⟨l, []⟩ true ++ payload =
      (l.map encodeHeader).flatten ++ ([0x80, 0x3f] ++ payload) := by
    simp [encodeElements, hl]; rfl
  have H : ∀ c ∈ l.map encodeHeader, Complete headerLen c ∧ headerStop (desc c) = false := by
    intro c hc
    obtain ⟨x, hx, rfl⟩ := List.mem_map.mp hc
    exact ⟨header_complete (HeaderOk.ne (hh x hx)), header_not_stop (hh x hx)⟩
  rw [InformationElements.new_eq, if_neg]
  rw [InformationElements.hS, InformationElements.hT, e, ieTails_flatten _ H, ieSize_append,
    ieSize_tailsOf _ fun c hc => (H c hc).1]
  have hd : desc ([0x80, 0x3f] ++ payload) = 0x3f80#16 := by
    show u16le 0x80 0x3f = _
    decide
  have hlen : headerLen (0x3f80#16) = 128 := by decide
  have : ieSize headerLen (ieTails headerLen headerStop ([0x80, 0x3f] ++ payload)) ≥ 130 := by
    rw [ieTails, if_pos (by simp), hd, hlen]
    split <;> simp only [ieSize, hd, hlen] <;> omega
  simp at this ⊢
  omega

example : ElementsOk ⟨[.timeCorrection ⟨⟨5⟩, false⟩], []⟩ := by decide

/-- **C22**, last clause: a default timeslot is emitted as its id alone, one octet, and is read
back (the id 0 is the one the standard reserves for the default template). -/
theorem C22_default_emit (i x : Byte) (rest : Bytes) :
    (TschTimeslotRepr.default i).bufferLen = 1 ∧
    (TschTimeslotRepr.default i).emit (x :: rest) = .ok (i :: rest) ∧
    TschTimeslotRepr.parse [0] = .ok (.default 0) := by
  refine ⟨rfl, rfl, rfl⟩

end Dot15d4.Props
