import Verif.Props.Reuse

/-!
# C88: what follows a frame in its buffer

A frame does not say how long it is: a receiver that is given more octets than were sent (a frame check
sequence not removed, or the rest of a buffer) should at least find the frame unchanged up to its
payload.  It does, unless the frame ends with information elements.
-/

namespace Dot15d4.Props
open Out Spec

/-- The frame as parsed from its octets and `x` after them: `x` is added to the payload. -/
def withPayload (f : FrameRepr) (p : Bytes) : FrameRepr :=
  { rereadFrame f with payload := if p = [] then none else some p }

/-- **C88**: octets after a frame are added to its payload. -/
def C88_statement : Prop := ∀ s cs f n d (x : Bytes), BuiltFrame s cs f → f.bufferLen = .ok n →
  f.emit (List.replicate n 0) = .ok d →
  FrameRepr.parse (d ++ x) = .ok (withPayload f (f.payload.getD [] ++ x))

theorem BuiltFrame.octets {s : Start} {cs : List Call} {f : FrameRepr} (h : BuiltFrame s cs f)
    {n : Nat} {d : Bytes} (hn : f.bufferLen = .ok n) (hd : f.emit (List.replicate n 0) = .ok d) :
    ∃ o0 o1, decodeFc o0 o1 = f.frameControl ∧
      d = o0 :: o1 :: (f.sequenceNumber.toList ++ (addrOctets f ++ tailOctets f)) := by
  obtain ⟨hc, ht, hw⟩ := h.parts
  obtain ⟨o0, o1, ho, -, he⟩ := emit_frame hc ht hw n hn
  rw [hd] at he
  simp only [ok.injEq] at he
  exact ⟨o0, o1, ho, he⟩

theorem BuiltFrame.consistent {s : Start} {cs : List Call} {f : FrameRepr} (h : BuiltFrame s cs f) :
    Consistent f := (C28_consistent_partial s cs f h.built h.addresses h.ack).1

/-- The same frame with another payload, parsed. -/
theorem parse_other_payload {f : FrameRepr} (hc : Consistent f) (hi : f.informationElements = none)
    (p : Bytes) {o0 o1 : Byte} (ho : decodeFc o0 o1 = f.frameControl) :
    FrameRepr.parse (o0 :: o1 :: (f.sequenceNumber.toList ++ (addrOctets f ++ p))) =
      .ok (withPayload f p) := by
  let g : FrameRepr := { f with payload := some p }
  have hg : Consistent g := ⟨hc.seq, hc.ie, hc.dst, hc.src, hc.pan, hc.none, hc.version, hc.clear⟩
  have hgi : g.informationElements = none := hi
  have ht : TailOk g := by
    intro ie e
    rw [hgi] at e
    cases e
  have := parse_frame (hg.coherent (tailOctets g).length) ht (o0 := o0) (o1 := o1) ho
  have et : tailOctets g = p := by
    rw [tailOctets, hgi]; rfl
  rw [et] at this
  rw [show addrOctets f = addrOctets g from rfl, show f.sequenceNumber = g.sequenceNumber from rfl, this]
  simp only [ok.injEq, withPayload, rereadFrame, FrameRepr.mk.injEq]
  refine ⟨rfl, rfl, rfl, rfl, ?_⟩
  cases p <;> simp [g]

/-- **C88** for frames without information elements. -/
theorem C88_appended_partial (s : Start) (cs : List Call) (f : FrameRepr) (n : Nat) (d x : Bytes)
    (h : BuiltFrame s cs f) (he : f.informationElements = none) (hn : f.bufferLen = .ok n)
    (hd : f.emit (List.replicate n 0) = .ok d) :
    FrameRepr.parse (d ++ x) = .ok (withPayload f (f.payload.getD [] ++ x)) := by
  obtain ⟨o0, o1, ho, rfl⟩ := h.octets hn hd
  have et : tailOctets f = f.payload.getD [] := by simp [tailOctets, he]
  have := parse_other_payload h.consistent he (f.payload.getD [] ++ x) ho
  rw [et]
  simpa using this

/-- The same for octets missing at the end of the payload. -/
theorem C88_shortened (s : Start) (cs : List Call) (f : FrameRepr) (n : Nat) (d p x : Bytes)
    (h : BuiltFrame s cs f) (he : f.informationElements = none) (hn : f.bufferLen = .ok n)
    (hp : f.payload = some (p ++ x)) (hd : f.emit (List.replicate n 0) = .ok d) :
    FrameRepr.parse (d.take (d.length - x.length)) = .ok (withPayload f p) := by
  obtain ⟨o0, o1, ho, rfl⟩ := h.octets hn hd
  have et : tailOctets f = p ++ x := by simp [tailOctets, he, hp]
  have := parse_other_payload h.consistent he p ho
  rw [et]
  have e : o0 :: o1 :: (f.sequenceNumber.toList ++ (addrOctets f ++ (p ++ x))) =
      (o0 :: o1 :: (f.sequenceNumber.toList ++ (addrOctets f ++ p))) ++ x := by simp
  rw [e, List.take_left' (by rw [List.length_append]; omega)]
  exact this

/-- The same frame with other elements, parsed. -/
theorem parse_other_elements {f : FrameRepr} (hc : Consistent f) (hi : f.informationElements.isSome)
    (hp : f.payload = none) (ie : InformationElementsRepr) (hie : ElementsOk ie) {o0 o1 : Byte}
    (ho : decodeFc o0 o1 = f.frameControl) :
    FrameRepr.parse (o0 :: o1 :: (f.sequenceNumber.toList ++ (addrOctets f ++
      encodeElements ie false))) = .ok (rereadFrame { f with informationElements := some ie }) := by
  let g : FrameRepr := { f with informationElements := some ie }
  have hg : Consistent g := ⟨hc.seq, by rw [show g.frameControl = f.frameControl from rfl, hc.ie, hi]; rfl,
    hc.dst, hc.src, hc.pan, hc.none, fun _ => hc.version hi, hc.clear⟩
  have ht : TailOk g := by
    intro ie' e
    cases e
    exact ⟨hie, hp⟩
  have := parse_frame (hg.coherent (tailOctets g).length) ht (o0 := o0) (o1 := o1) ho
  have et : tailOctets g = encodeElements ie false := by
    show encodeElements ie false ++ f.payload.getD [] = _
    rw [hp]; simp
  rw [et] at this
  exact this

/-- Frames that end with header elements take further ones in: what follows such a frame is not told
from elements of its own. -/
theorem C88_header_elements (s : Start) (cs : List Call) (f : FrameRepr) (n : Nat) (d : Bytes)
    (l m : List HeaderIeRepr) (h : BuiltFrame s cs f) (he : f.informationElements = some ⟨l, []⟩)
    (hm : ∀ e ∈ m, HeaderOk e) (hl : (l ++ m).length ≤ 16) (hn : f.bufferLen = .ok n)
    (hd : f.emit (List.replicate n 0) = .ok d) :
    FrameRepr.parse (d ++ (m.map encodeHeader).flatten) =
      .ok (rereadFrame { f with informationElements := some ⟨l ++ m, []⟩ }) := by
  obtain ⟨o0, o1, ho, rfl⟩ := h.octets hn hd
  obtain ⟨-, ht, -⟩ := h.parts
  obtain ⟨hok, hp⟩ := ht _ he
  have := parse_other_elements h.consistent (by rw [he]; rfl) hp ⟨l ++ m, []⟩
    ⟨hl, by simp, fun e q => (List.mem_append.1 q).elim (hok.2.2.1 e) (hm e), by simp⟩ ho
  have et : tailOctets f = (l.map encodeHeader).flatten := by
    simp [tailOctets, he, hp, encodeElements]
  have e2 : encodeElements ⟨l ++ m, []⟩ false =
      (l.map encodeHeader).flatten ++ (m.map encodeHeader).flatten := by
    simp [encodeElements]
  rw [e2] at this
  rw [et]
  simpa using this

/-- So do frames that end with payload elements. -/
theorem C88_payload_elements (s : Start) (cs : List Call) (f : FrameRepr) (n : Nat) (d : Bytes)
    (k : List HeaderIeRepr) (l m : List PayloadIeRepr) (h : BuiltFrame s cs f)
    (he : f.informationElements = some ⟨k, l⟩) (h0 : l ≠ [])
    (hm : ∀ e ∈ m, PayloadOk e) (hl : (l ++ m).length ≤ 16) (hn : f.bufferLen = .ok n)
    (hd : f.emit (List.replicate n 0) = .ok d) :
    FrameRepr.parse (d ++ (m.map encodePayload).flatten) =
      .ok (rereadFrame { f with informationElements := some ⟨k, l ++ m⟩ }) := by
  obtain ⟨o0, o1, ho, rfl⟩ := h.octets hn hd
  obtain ⟨-, ht, -⟩ := h.parts
  obtain ⟨hok, hp⟩ := ht _ he
  have := parse_other_elements h.consistent (by rw [he]; rfl) hp ⟨k, l ++ m⟩
    ⟨hok.1, hl, hok.2.2.1, fun e q => (List.mem_append.1 q).elim (hok.2.2.2 e) (hm e)⟩ ho
  have et : tailOctets f = (k.map encodeHeader).flatten ++ encodeHeader .headerTermination1 ++
      (l.map encodePayload).flatten := by
    simp [tailOctets, he, hp, encodeElements, h0]
  have e2 : encodeElements ⟨k, l ++ m⟩ false = (k.map encodeHeader).flatten ++
      encodeHeader .headerTermination1 ++ (l.map encodePayload).flatten ++
      (m.map encodePayload).flatten := by
    simp [encodeElements, h0]
  rw [e2] at this
  rw [et]
  simpa using this

/-- The data frame of C87 with a frame check sequence. -/
example := C88_appended_partial _ _ _ 11 [0x41, 0x98, 7, 0xcd, 0xab, 2, 1, 4, 3, 1, 2] [0xde, 0xad]
  data_built rfl rfl (by decide +kernel)

/-- The same without the last octet of its payload. -/
example := C88_shortened _ _ _ 11 [0x41, 0x98, 7, 0xcd, 0xab, 2, 1, 4, 3, 1, 2] [1] [2] data_built rfl
  rfl rfl (by decide +kernel)

/-- An enhanced beacon that ends with a header element. -/
theorem header_built : BuiltFrame .enhancedBeacon [.dstPanId 0xabcd,
      .dstAddress (.short ⟨[1, 2], rfl⟩), .headerElement (.timeCorrection ⟨⟨3⟩, true⟩)]
    ⟨⟨.beacon, false, false, false, false, true, true, .short, .absent, .v2020⟩, none,
      some ⟨some 0xabcd, some (.short ⟨[1, 2], rfl⟩), none, none⟩,
      some ⟨[.timeCorrection ⟨⟨3⟩, true⟩], []⟩, none⟩ where
  built := by decide +kernel
  addresses := by decide
  ack := by decide
  elements := fun _ => by decide

/-- It takes in a second time correction. -/
example := C88_header_elements _ _ _ 10 [0x00, 0x2b, 0xcd, 0xab, 2, 1, 2, 0x0f, 3, 0x80] _
  [.timeCorrection ⟨⟨5⟩, false⟩] header_built rfl (by decide) (by decide) rfl (by decide +kernel)

/-- An enhanced beacon that ends with a payload element. -/
theorem payload_built : BuiltFrame .enhancedBeacon [.sequenceNumber 7, .dstPanId 0xabcd,
      .dstAddress (.short ⟨[1, 2], rfl⟩), .payloadElement (.mlme [.tschTimeslot (.default 0)])]
    ⟨⟨.beacon, false, false, false, false, false, true, .short, .absent, .v2020⟩, some 7,
      some ⟨some 0xabcd, some (.short ⟨[1, 2], rfl⟩), none, none⟩,
      some ⟨[], [.mlme [.tschTimeslot (.default 0)]]⟩, none⟩ where
  built := by decide +kernel
  addresses := by decide
  ack := by decide
  elements := fun _ => by decide

/-- It takes in a second MLME element. -/
example := C88_payload_elements _ _ _ 14
  [0x00, 0x2a, 7, 0xcd, 0xab, 2, 1, 0x00, 0x3f, 0x03, 0x88, 0x01, 0x1c, 0x00] _ _ [.mlme []]
  payload_built rfl (by decide) (by decide) (by decide) rfl (by decide +kernel)

/-- **C88** is false: of a beacon that ends with a header element. -/
theorem C88_false : ¬ C88_statement := by
  intro h
  have h1 := h _ _ _ 10 [0x00, 0x2b, 0xcd, 0xab, 2, 1, 2, 0x0f, 3, 0x80] [0x02, 0x0f, 5, 0]
    header_built rfl (by decide +kernel)
  have h2 := C88_header_elements _ _ _ 10 [0x00, 0x2b, 0xcd, 0xab, 2, 1, 2, 0x0f, 3, 0x80] _
    [.timeCorrection ⟨⟨5⟩, false⟩] header_built rfl (by decide) (by decide) rfl (by decide +kernel)
  rw [show ((([HeaderIeRepr.timeCorrection ⟨⟨5⟩, false⟩] : List HeaderIeRepr).map encodeHeader).flatten) =
    [0x02, 0x0f, 5, 0] from by decide] at h2
  rw [h1] at h2
  simp [withPayload, rereadFrame] at h2

end Dot15d4.Props
