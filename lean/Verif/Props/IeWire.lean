import Verif.Spec.IeWire
import Verif.Props.IeList
import Verif.Props.IeCodes
import Verif.Model.Frames

/-! # C72: information elements laid out by the standard -/

namespace Dot15d4.Props
open Out Spec InformationElements

/-- `InformationElements::new` accepts the octets, `len()` is `n`, and the two iterators give, in
order, the elements `hs` and `ps`: their identifiers, by the tables, and their contents. -/
def Reads (d : Bytes) (hs ps : List WireIe) (n : Nat) : Prop :=
  InformationElements.new d = .ok d ∧ InformationElements.len d = .ok n ∧
  ∃ hi e pi e', headerDrain d = .ok (hi, e) ∧ payloadDrain d = .ok (pi, e') ∧
    hi.map HeaderIe.elementId = hs.map (fun x => .ok (named headerCodes .unkown x.id)) ∧
    hi.map HeaderIe.content = hs.map (fun x => .ok x.content) ∧
    pi.map PayloadIe.groupId = ps.map (fun x => .ok (named payloadCodes .unknown x.id)) ∧
    pi.map PayloadIe.content = ps.map (fun x => .ok x.content)

/-- **C72**, the full property: whatever elements a frame has, laid out by the standard, with or
without a frame payload `data` after them, are read, and the payload is not taken for elements. -/
def C72_statement : Prop := ∀ (hs ps : List WireIe) (data : Bytes),
  (∀ x ∈ hs, x.HeaderFits) → (∀ x ∈ ps, x.PayloadFits) →
  Reads (octets WireIe.header hs) hs [] (octets WireIe.header hs).length ∧
  Reads (octets WireIe.header (hs ++ [ht1]) ++ octets WireIe.payload ps) (hs ++ [ht1]) ps
    (octets WireIe.header (hs ++ [ht1]) ++ octets WireIe.payload ps).length ∧
  Reads (octets WireIe.header (hs ++ [ht1]) ++ octets WireIe.payload (ps ++ [pt]) ++ data)
    (hs ++ [ht1]) (ps ++ [pt])
    (octets WireIe.header (hs ++ [ht1]) ++ octets WireIe.payload (ps ++ [pt])).length ∧
  Reads (octets WireIe.header (hs ++ [ht2]) ++ data) (hs ++ [ht2]) []
    (octets WireIe.header (hs ++ [ht2])).length

/-! ## Descriptors -/

theorem desc_wire16 (n : Nat) (l : Bytes) (h : n < 2 ^ 16) : (desc (wire16 n ++ l)).toNat = n := by
  show (u16le (BitVec.ofNat 8 n) (BitVec.ofNat 8 (n / 256))).toNat = n
  rw [u16le_toNat]
  simp only [BitVec.toNat_ofNat]
  omega

theorem length_wire16 (n : Nat) : (wire16 n).length = 2 := rfl

/-- An element as the iterators see it: as long as its descriptor says, and not a termination. -/
def Passes (len : BitVec 16 → Nat) (stop : BitVec 16 → Bool) (c : Bytes) : Prop :=
  2 ≤ c.length ∧ ∀ r, len (desc (c ++ r)) + 2 = c.length ∧ stop (desc (c ++ r)) = false

theorem header_word_len (e : WireIe) (r : Bytes) (hl : e.content.length < 2 ^ 7)
    (hi : e.id < 2 ^ 8) : headerLen (desc (e.header ++ r)) =
      e.content.length / 2 * 2 + 128 * (e.id % 2) ∧ bits (desc (e.header ++ r)) 7 8 = e.id := by
  have h := desc_wire16 (e.content.length + 2 ^ 7 * e.id) (e.content ++ r) (by omega)
  rw [← List.append_assoc] at h
  simp only [WireIe.header, headerLen, bits, h]
  omega

theorem payload_word_len (e : WireIe) (r : Bytes) (hl : e.content.length < 2 ^ 11)
    (hi : e.id < 2 ^ 4) : payloadLen (desc (e.payload ++ r)) = e.content.length % 1024 ∧
      bits (desc (e.payload ++ r)) 11 4 = e.id ∧ bits (desc (e.payload ++ r)) 11 3 = e.id % 8 := by
  have h := desc_wire16 (e.content.length + 2 ^ 11 * e.id + 2 ^ 15) (e.content ++ r) (by omega)
  rw [← List.append_assoc] at h
  simp only [WireIe.payload, payloadLen, bits, h]
  omega

/-- An even id and an even length: what the code's reading of the length field is right for. -/
def Even (e : WireIe) : Prop := e.content.length % 2 = 0 ∧ e.id % 2 = 0

theorem header_passes (e : WireIe) (hf : e.HeaderFits) (he : Even e) :
    Passes headerLen headerStop e.header := by
  obtain ⟨h1, h2⟩ := hf
  obtain ⟨h3, h4⟩ := he
  have hl : e.header.length = e.content.length + 2 := by
    simp [WireIe.header, length_wire16]; omega
  refine ⟨by omega, fun r => ?_⟩
  obtain ⟨g1, g2⟩ := header_word_len e r h1 (by omega)
  refine ⟨by rw [g1, hl]; omega, ?_⟩
  simp only [headerStop, g2, Bool.or_eq_false_iff, beq_eq_false_iff_ne]
  omega

theorem payload_passes (e : WireIe) (hl : e.content.length < 1024) (hi : e.id < 16) :
    Passes payloadLen (fun _ => false) e.payload := by
  have hl' : e.payload.length = e.content.length + 2 := by
    simp [WireIe.payload, length_wire16]; omega
  refine ⟨by omega, fun r => ?_⟩
  obtain ⟨g1, -⟩ := payload_word_len e r (by omega) hi
  exact ⟨by rw [g1, hl']; omega, rfl⟩

/-! ## Lists of elements -/

/-- The octets from each element on. -/
def tailsOf : List Bytes → Bytes → List Bytes
  | [], _ => []
  | c :: cs, r => (c ++ (cs.flatten ++ r)) :: tailsOf cs r

theorem ieTails_pass {len stop} {c : Bytes} (h : Passes len stop c) (r : Bytes) :
    ieTails len stop (c ++ r) = (c ++ r) :: ieTails len stop r := by
  obtain ⟨h1, h2⟩ := h
  obtain ⟨h3, h4⟩ := h2 r
  conv => lhs; rw [ieTails]
  rw [if_pos (by simp; omega), h4, h3]
  by_cases hr : r = []
  · subst hr
    rw [if_pos (.inr (by simp))]
    congr 1
    rw [ieTails]; simp
  · rw [if_neg]
    · rw [List.drop_left]
    · have := List.length_pos_iff.mpr hr
      simp; omega

theorem ieTails_pass_list {len stop} : ∀ {cs : List Bytes}, (∀ c ∈ cs, Passes len stop c) →
    ∀ r, ieTails len stop (cs.flatten ++ r) = tailsOf cs r ++ ieTails len stop r ∧
      (tailsOf cs r).map (ieChunk len) = cs ∧ ieSize len (tailsOf cs r) = cs.flatten.length ∧
      ∀ t ∈ tailsOf cs r, len (desc t) + 2 ≤ t.length
  | [], _, r => by simp [tailsOf, ieSize]
  | c :: cs, h, r => by
    obtain ⟨i1, i2, i3, i4⟩ := ieTails_pass_list (cs := cs) (fun x hx => h x (by simp [hx])) r
    have hc := h c (by simp)
    have hd := (hc.2 (cs.flatten ++ r)).1
    rw [List.flatten_cons, List.append_assoc, ieTails_pass hc, i1]
    refine ⟨rfl, ?_, ?_, ?_⟩
    · rw [tailsOf, List.map_cons, i2, ieChunk, hd, List.take_left]
    · rw [tailsOf, ieSize, i3, hd]; simp
    · intro t ht
      rw [tailsOf] at ht
      rcases List.mem_cons.mp ht with rfl | ht
      · rw [hd]; simp
      · exact i4 t ht

theorem ieSize_append (len : BitVec 16 → Nat) (l l' : List Bytes) :
    ieSize len (l ++ l') = ieSize len l + ieSize len l' := by
  induction l with
  | nil => simp [ieSize]
  | cons t l ih => simp only [List.cons_append, ieSize, ih]; omega

/-- Reading, given where the iterators find elements. -/
theorem reads_of {d : Bytes} {hs ps : List WireIe} {n : Nat}
    (h1 : hS d + pS d ≤ d.length) (hn : hS d + pS d = n)
    (h2 : (hT d).map (ieChunk headerLen) = hs.map WireIe.header)
    (h3 : (pT d).map (ieChunk payloadLen) = ps.map WireIe.payload)
    (h4 : ∀ x ∈ hs, x.content.length < 2 ^ 7 ∧ x.id < 2 ^ 8)
    (h5 : ∀ x ∈ ps, x.content.length < 2 ^ 10 ∧ x.id < 2 ^ 3) : Reads d hs ps n := by
  have hle : hS d ≤ d.length := by omega
  obtain ⟨e, a1, -, -⟩ := headerDrain_eq d
  obtain ⟨e', b1, -, -⟩ := payloadDrain_eq d hle
  have c2 := (ieTails_split headerLen headerStop d hle).2
  have e2 := (ieTails_split payloadLen (fun _ => false) (d.drop (hS d))
    (by rw [List.length_drop]; show pS d ≤ _; omega)).2
  obtain ⟨r1, -, r2⟩ := readsHeader (l := hT d) (fun t ht => mem_ieTails ht) c2
  obtain ⟨s1, -, s2⟩ := readsPayload (l := pT d) (fun t ht => mem_ieTails ht) e2
  rw [h2] at r1 r2
  rw [h3] at s1 s2
  refine ⟨by rw [new_eq, if_pos h1], by rw [len_eq d hle, hn], hT d, e, pT d, e', a1, b1, ?_, ?_,
    ?_, ?_⟩
  · rw [r2, List.map_map]
    apply List.map_congr_left
    intro x hx
    have := (header_word_len x [] (h4 x hx).1 (h4 x hx).2).2
    rw [List.append_nil] at this
    simp only [Function.comp, headerIdOf, this, header_ofU8, BitVec.toNat_ofNat]
    rw [Nat.mod_eq_of_lt (h4 x hx).2]
  · rw [r1, List.map_map]
    apply List.map_congr_left
    intro x _
    rfl
  · rw [s2, List.map_map]
    apply List.map_congr_left
    intro x hx
    obtain ⟨q1, q2⟩ := h5 x hx
    have := (payload_word_len x [] (by omega) (by omega)).2.2
    rw [List.append_nil] at this
    simp only [Function.comp, groupIdOf, this, payload_ofU8, BitVec.toNat_ofNat]
    rw [Nat.mod_eq_of_lt (show x.id % 8 < 2 ^ 8 by omega), Nat.mod_eq_of_lt (show x.id < 8 from q2)]
  · rw [s1, List.map_map]
    apply List.map_congr_left
    intro x _
    rfl

/-- Where the iterators find the elements before and after a header termination 1. -/
theorem split_ht1 (hs : List WireIe) (q : Bytes) (hh : ∀ x ∈ hs, x.HeaderFits ∧ Even x) :
    (hT (octets WireIe.header (hs ++ [ht1]) ++ q)).map (ieChunk headerLen) =
      (hs ++ [ht1]).map WireIe.header ∧
    hS (octets WireIe.header (hs ++ [ht1]) ++ q) = (octets WireIe.header (hs ++ [ht1])).length ∧
    pT (octets WireIe.header (hs ++ [ht1]) ++ q) = ieTails payloadLen (fun _ => false) q := by
  have hp : ∀ c ∈ hs.map WireIe.header, Passes headerLen headerStop c := by
    intro c hc
    obtain ⟨x, hx, rfl⟩ := List.mem_map.mp hc
    exact header_passes x (hh x hx).1 (hh x hx).2
  have e0 : octets WireIe.header (hs ++ [ht1]) ++ q =
      (hs.map WireIe.header).flatten ++ (ht1.header ++ q) := by
    simp [octets, List.append_assoc]
  obtain ⟨i1, i2, i3, i4⟩ := ieTails_pass_list hp (ht1.header ++ q)
  have hw : headerLen (desc (ht1.header ++ q)) = 0 ∧ headerStop (desc (ht1.header ++ q)) = true := by
    obtain ⟨g1, g2⟩ := header_word_len ht1 q (by decide) (by decide)
    exact ⟨g1, by rw [headerStop, g2]; rfl⟩
  have e1 : ieTails headerLen headerStop (ht1.header ++ q) = [ht1.header ++ q] := by
    rw [ieTails, if_pos (by simp [WireIe.header, length_wire16]), if_pos (.inl hw.2)]
  have e2 : hT (octets WireIe.header (hs ++ [ht1]) ++ q) =
      tailsOf (hs.map WireIe.header) (ht1.header ++ q) ++ [ht1.header ++ q] := by
    rw [hT, e0, i1, e1]
  have e3 : hS (octets WireIe.header (hs ++ [ht1]) ++ q) =
      (octets WireIe.header (hs ++ [ht1])).length := by
    rw [hS, e2, ieSize_append, i3]
    simp only [ieSize, hw.1, octets, List.map_append, List.flatten_append, List.length_append]
    rfl
  refine ⟨?_, e3, ?_⟩
  · rw [e2, List.map_append, i2, List.map_append]
    congr 1
    rw [List.map_singleton, List.map_singleton, ieChunk, hw.1]
    rfl
  · rw [pT, e3, List.drop_left]

/-! ## C72 -/

/-- **C72**, what holds (`_partial`: excluded are header elements of odd ids or odd lengths, payload
elements with 1024 octets of content or more or a group id above 7, and frame payloads after
elements): header elements alone, and header elements followed by payload elements, are read. -/
theorem C72_read_partial (hs ps : List WireIe) (hh : ∀ x ∈ hs, x.HeaderFits ∧ Even x)
    (hp : ∀ x ∈ ps, x.content.length < 2 ^ 10 ∧ x.id < 2 ^ 3) :
    Reads (octets WireIe.header hs) hs [] (octets WireIe.header hs).length ∧
    Reads (octets WireIe.header (hs ++ [ht1]) ++ octets WireIe.payload ps) (hs ++ [ht1]) ps
      (octets WireIe.header (hs ++ [ht1]) ++ octets WireIe.payload ps).length := by
  have hf : ∀ x ∈ hs, x.content.length < 2 ^ 7 ∧ x.id < 2 ^ 8 := fun x hx => by
    obtain ⟨⟨h1, h2⟩, -⟩ := hh x hx
    omega
  have hpas : ∀ c ∈ hs.map WireIe.header, Passes headerLen headerStop c := by
    intro c hc
    obtain ⟨x, hx, rfl⟩ := List.mem_map.mp hc
    exact header_passes x (hh x hx).1 (hh x hx).2
  constructor
  · obtain ⟨i1, i2, i3, i4⟩ := ieTails_pass_list hpas []
    have e1 : ieTails headerLen headerStop [] = [] := by rw [ieTails]; simp
    rw [List.append_nil, e1, List.append_nil] at i1
    have e2 : hT (octets WireIe.header hs) = tailsOf (hs.map WireIe.header) [] := i1
    have e3 : hS (octets WireIe.header hs) = (octets WireIe.header hs).length := by
      rw [hS, e2, i3, octets]
    have e4 : pT (octets WireIe.header hs) = [] := by
      rw [pT, e3, List.drop_length, ieTails]; simp
    have e5 : pS (octets WireIe.header hs) = 0 := by rw [pS, e4]; rfl
    exact reads_of (by omega) (by omega) (by rw [e2, i2]) (by rw [e4]; rfl) hf (by simp)
  · obtain ⟨f1, f2, f3⟩ := split_ht1 hs (octets WireIe.payload ps) hh
    have hq : ∀ c ∈ ps.map WireIe.payload, Passes payloadLen (fun _ => false) c := by
      intro c hc
      obtain ⟨x, hx, rfl⟩ := List.mem_map.mp hc
      have := hp x hx
      exact payload_passes x this.1 (by omega)
    obtain ⟨i1, i2, i3, i4⟩ := ieTails_pass_list hq []
    have e1 : ieTails payloadLen (fun _ => false) [] = [] := by rw [ieTails]; simp
    rw [List.append_nil, e1, List.append_nil] at i1
    have e4 : pS (octets WireIe.header (hs ++ [ht1]) ++ octets WireIe.payload ps) =
        (octets WireIe.payload ps).length := by
      rw [pS, f3, octets, i1, i3]
    refine reads_of (by rw [f2, e4]; simp) (by rw [f2, e4]; simp) f1
      (by rw [f3, octets, i1, i2]) ?_ hp
    intro x hx
    rcases List.mem_append.mp hx with h | h
    · exact hf x h
    · rw [List.mem_singleton] at h; subst h; decide

/-- A time correction element, a header termination, and an MLME element with a nested element. -/
example : (∀ x ∈ [(⟨0x1e, [0xff, 0x8f]⟩ : WireIe)], x.HeaderFits ∧ Even x) ∧
    (∀ x ∈ [(⟨1, [0x06, 0x1a, 1, 0, 0, 0, 0, 5]⟩ : WireIe)],
      x.content.length < 2 ^ 10 ∧ x.id < 2 ^ 3) ∧
    octets WireIe.header ([⟨0x1e, [0xff, 0x8f]⟩] ++ [ht1]) ++
      octets WireIe.payload [⟨1, [0x06, 0x1a, 1, 0, 0, 0, 0, 5]⟩] =
      [0x02, 0x0f, 0xff, 0x8f, 0x00, 0x3f, 0x08, 0x88, 0x06, 0x1a, 1, 0, 0, 0, 0, 5] := by
  refine ⟨?_, ?_, by decide⟩ <;> simp [WireIe.HeaderFits, Even]

/-- **C72** fails for every frame payload after a header termination 2 in frames of the 2.4 GHz PHY:
when fewer than 128 octets follow, the elements are refused as a whole. -/
theorem C72_ht2 (hs : List WireIe) (data : Bytes) (hh : ∀ x ∈ hs, x.HeaderFits ∧ Even x)
    (hd : data.length < 128) :
    InformationElements.new (octets WireIe.header (hs ++ [ht2]) ++ data) = .err := by
  have hp : ∀ c ∈ hs.map WireIe.header, Passes headerLen headerStop c := by
    intro c hc
    obtain ⟨x, hx, rfl⟩ := List.mem_map.mp hc
    exact header_passes x (hh x hx).1 (hh x hx).2
  have e0 : octets WireIe.header (hs ++ [ht2]) ++ data =
      (hs.map WireIe.header).flatten ++ (ht2.header ++ data) := by
    simp [octets, List.append_assoc]
  obtain ⟨i1, -, i3, -⟩ := ieTails_pass_list hp (ht2.header ++ data)
  obtain ⟨g1, g2⟩ := header_word_len ht2 data (by decide) (by decide)
  have e1 : ieTails headerLen headerStop (ht2.header ++ data) = [ht2.header ++ data] := by
    rw [ieTails, if_pos (by simp [WireIe.header, length_wire16]),
      if_pos (.inl (by rw [headerStop, g2]; rfl))]
  have e2 : hS (octets WireIe.header (hs ++ [ht2]) ++ data) =
      (hs.map WireIe.header).flatten.length + 130 := by
    rw [hS, hT, e0, i1, e1, ieSize_append, i3, ieSize, g1]
    rfl
  rw [new_eq, if_neg]
  rw [e2, e0]
  have : ht2.header.length = 2 := rfl
  simp only [List.length_append, this]
  omega

/-- So of a data frame with a time correction element, a header termination 2 and a payload of one
octet, no elements are reported and everything is reported as payload. -/
example : DataFrame.new [0x01, 0x22, 0x2a, 0x02, 0x0f, 0xff, 0x8f, 0x80, 0x3f, 0x05] =
      .ok [0x01, 0x22, 0x2a, 0x02, 0x0f, 0xff, 0x8f, 0x80, 0x3f, 0x05] ∧
    DataFrame.informationElements [0x01, 0x22, 0x2a, 0x02, 0x0f, 0xff, 0x8f, 0x80, 0x3f, 0x05] =
      .ok none ∧
    DataFrame.payload [0x01, 0x22, 0x2a, 0x02, 0x0f, 0xff, 0x8f, 0x80, 0x3f, 0x05] =
      .ok (some [0x02, 0x0f, 0xff, 0x8f, 0x80, 0x3f, 0x05]) := by decide +kernel

/-- **C72** fails for every frame payload of at least two octets after a payload termination: it is
taken for further elements (which may make `InformationElements::new` refuse them all). -/
theorem C72_payload_misread (hs ps : List WireIe) (data : Bytes)
    (hh : ∀ x ∈ hs, x.HeaderFits ∧ Even x) (hp : ∀ x ∈ ps, x.content.length < 2 ^ 10 ∧ x.id < 2 ^ 4)
    (hd : 2 ≤ data.length) :
    let d := octets WireIe.header (hs ++ [ht1]) ++ (octets WireIe.payload (ps ++ [pt]) ++ data)
    ∃ pi e, payloadDrain d = .ok (pi, e) ∧ ps.length + 1 < pi.length ∧
      (data ∈ pi) ∧ (InformationElements.new d = .ok d → ∃ n, InformationElements.len d = .ok n ∧
        (octets WireIe.header (hs ++ [ht1]) ++ octets WireIe.payload (ps ++ [pt])).length < n) := by
  intro d
  obtain ⟨f1, f2, f3⟩ := split_ht1 hs (octets WireIe.payload (ps ++ [pt]) ++ data) hh
  have hq : ∀ c ∈ (ps ++ [pt]).map WireIe.payload, Passes payloadLen (fun _ => false) c := by
    intro c hc
    obtain ⟨x, hx, rfl⟩ := List.mem_map.mp hc
    rcases List.mem_append.mp hx with h | h
    · have := hp x h
      exact payload_passes x this.1 (by omega)
    · rw [List.mem_singleton] at h; subst h; exact payload_passes pt (by decide) (by decide)
  obtain ⟨i1, i2, i3, -⟩ := ieTails_pass_list hq data
  have hle : hS d ≤ d.length := by rw [f2]; simp [d]
  obtain ⟨e', b1, -, -⟩ := payloadDrain_eq d hle
  have h1 : pT d = tailsOf ((ps ++ [pt]).map WireIe.payload) data ++
      ieTails payloadLen (fun _ => false) data := by rw [f3, octets, i1]
  have h2 := congrArg List.length i2
  simp only [List.length_map, List.length_append, List.length_cons, List.length_nil] at h2
  have h3 : ∃ l, ieTails payloadLen (fun _ => false) data = data :: l := by
    rw [ieTails, if_pos hd]; exact ⟨_, rfl⟩
  obtain ⟨l, h3⟩ := h3
  refine ⟨pT d, e', b1, ?_, ?_, fun _ => ⟨_, len_eq d hle, ?_⟩⟩
  · rw [h1, h3, List.length_append, h2]
    simp
  · rw [h1, h3]; simp
  · rw [f2, pS, h1, ieSize_append, i3, h3, ieSize, List.length_append]
    simp only [octets]
    omega

/-- **C72** is false of the code. -/
theorem C72_false : ¬ C72_statement := by
  intro h
  have h1 := (h [] [] [] (by simp) (by simp)).2.2.2.1
  rw [C72_ht2 [] [] (by simp) (by decide)] at h1
  cases h1

/-- **C72**, the reason: of the length of a header element bit 0 is not read, and bit 0 of the id is
read as its bit 7.  (The standard's elements with an odd id, such as RIT, 0x1b, are read as 128 octets
longer than they are; a vendor specific element that has only the three octets of the vendor's id as
two octets long.) -/
theorem C72_header_length (e : WireIe) (r : Bytes) (hf : e.content.length < 2 ^ 7)
    (hi : e.id < 2 ^ 8) :
    HeaderIe.len (e.header ++ r) = .ok (e.content.length / 2 * 2 + 128 * (e.id % 2)) := by
  rw [HeaderIe.len, desc_readU16 (by simp [WireIe.header, length_wire16]), bind_ok,
    HeaderIe.wLen_eq, (header_word_len e r hf hi).1]

example : HeaderIe.len (WireIe.header ⟨0, [0x01, 0x02, 0x03]⟩) = .ok 2 :=
  C72_header_length ⟨0, [0x01, 0x02, 0x03]⟩ [] (by decide) (by decide)

/-! ## Nested elements -/

/-- The octets of a nested element of either type. -/
def nestedWire : Bool × WireIe → Bytes
  | (false, e) => e.short
  | (true, e) => e.long

/-- The sub id of a nested element, by the tables. -/
def nestedName : Bool × WireIe → NestedSubId
  | (false, e) => .short (named shortCodes .unkown e.id)
  | (true, e) => .long (named longCodes .unkown e.id)

/-- The iterator gives exactly these elements, in order, and ends. -/
def ReadsNested (c : Bytes) (l : List (Bool × WireIe)) : Prop :=
  ∃ items e, drain nestedNext (c.length + 1) (nestedIter c) = .ok (items, e) ∧
    nestedNext e = .ok (none, e) ∧
    items.map NestedIe.subId = l.map (fun x => .ok (nestedName x)) ∧
    items.map NestedIe.content = l.map (fun x => .ok x.2.content)

/-- **C72**, the full property for the elements nested in an MLME element. -/
def C72_nested_statement : Prop := ∀ l : List (Bool × WireIe),
  (∀ x ∈ l, if x.1 then x.2.content.length < 2 ^ 11 ∧ x.2.id < 2 ^ 4
    else x.2.content.length < 2 ^ 8 ∧ x.2.id < 2 ^ 7) →
  ReadsNested (l.map nestedWire).flatten l

theorem nested_word (x : Bool × WireIe) (r : Bytes)
    (h : if x.1 then x.2.content.length < 2 ^ 10 ∧ x.2.id < 2 ^ 4
      else x.2.content.length < 2 ^ 7 ∧ x.2.id < 2 ^ 6) :
    nestedLen (desc (nestedWire x ++ r)) = x.2.content.length ∧
    (nestedWire x).length = x.2.content.length + 2 ∧
    NestedIe.subId (nestedWire x) = .ok (nestedName x) ∧
    NestedIe.content (nestedWire x) = .ok x.2.content := by
  have key : ∀ r, nestedLen (desc (nestedWire x ++ r)) = x.2.content.length ∧
      (nestedWire x).length = x.2.content.length + 2 ∧ bits (desc (nestedWire x ++ r)) 15 1 = x.1.toNat ∧
      (x.1 = true → bits (desc (nestedWire x ++ r)) 11 4 = x.2.id) ∧
      (x.1 = false → bits (desc (nestedWire x ++ r)) 8 6 = x.2.id) := by
    intro r
    obtain ⟨_ | _, e⟩ := x
    · simp only [Bool.false_eq_true, if_false] at h
      have hd := desc_wire16 (e.content.length + 2 ^ 8 * e.id) (e.content ++ r) (by omega)
      rw [← List.append_assoc] at hd
      simp only [nestedWire, WireIe.short, nestedLen, bits, hd, List.length_append, length_wire16,
        Bool.false_eq_true, false_imp_iff, true_and, true_imp_iff, Bool.toNat_false]
      have : ((e.content.length + 2 ^ 8 * e.id) / 2 ^ 15) % 2 ^ 1 = 0 := by omega
      rw [this, if_neg (by decide)]
      omega
    · simp only [if_true] at h
      have hd := desc_wire16 (e.content.length + 2 ^ 11 * e.id + 2 ^ 15) (e.content ++ r) (by omega)
      rw [← List.append_assoc] at hd
      simp only [nestedWire, WireIe.long, nestedLen, bits, hd, List.length_append, length_wire16,
        Bool.true_eq_false, false_imp_iff, and_true, true_imp_iff, Bool.toNat_true]
      have : ((e.content.length + 2 ^ 11 * e.id + 2 ^ 15) / 2 ^ 15) % 2 ^ 1 = 1 := by omega
      rw [this, if_pos rfl]
      omega
  obtain ⟨k1, k2, -⟩ := key r
  obtain ⟨k3, -, k4, k5, k6⟩ := key []
  rw [List.append_nil] at k3 k4 k5 k6
  have h2 : 2 ≤ (nestedWire x).length := by omega
  refine ⟨k1, k2, ?_, ?_⟩
  · rw [(C68_read_partial _ h2).2.2, k4]
    obtain ⟨_ | _, e⟩ := x
    · rw [if_neg (by simp), k6 rfl]; rfl
    · rw [if_pos (by simp), k5 rfl]; rfl
  · simp only [NestedIe.content, NestedIe.length, desc_readU16 h2, bind_ok, sliceFrom_ok h2,
      NestedIe.wLen_eq, k3]
    rw [sliceTo_ok (by rw [List.length_drop]; omega), List.take_of_length_le
      (by rw [List.length_drop]; omega)]
    obtain ⟨_ | _, e⟩ := x <;> rfl

theorem nestedChunks_pass : ∀ (l : List (Bool × WireIe)),
    (∀ x ∈ l, if x.1 then x.2.content.length < 2 ^ 10 ∧ x.2.id < 2 ^ 4
      else x.2.content.length < 2 ^ 7 ∧ x.2.id < 2 ^ 6) →
    nestedChunks (l.map nestedWire).flatten = l.map nestedWire
  | [], _ => nestedChunks_nil
  | x :: l, h => by
    obtain ⟨k1, k2, -⟩ := nested_word x (l.map nestedWire).flatten (h x (by simp))
    rw [List.map_cons, List.flatten_cons, nestedChunks, k1,
      if_pos (by rw [List.length_append]; omega), ← k2, List.take_left, List.drop_left,
      nestedChunks_pass l (fun y hy => h y (by simp [hy]))]

/-- **C72**, nested elements, what holds (`_partial`: excluded are short elements of 128 octets or
more or with a sub id of 0x40 or more, and long elements of 1024 octets or more). -/
theorem C72_nested_partial (l : List (Bool × WireIe))
    (h : ∀ x ∈ l, if x.1 then x.2.content.length < 2 ^ 10 ∧ x.2.id < 2 ^ 4
      else x.2.content.length < 2 ^ 7 ∧ x.2.id < 2 ^ 6) :
    ReadsNested (l.map nestedWire).flatten l := by
  obtain ⟨e, h1, h2⟩ := drain_nested ((l.map nestedWire).flatten.length + 1)
    (nestedIter (l.map nestedWire).flatten) (by simp [nestedIter]) (by simp [nestedIter])
  have h3 : drain nestedNext ((l.map nestedWire).flatten.length + 1)
      (nestedIter (l.map nestedWire).flatten) = .ok (l.map nestedWire, e) := by
    rw [h1]
    simp only [nestedIter, List.drop_zero, nestedChunks_pass l h]
    split
    · next hc =>
      cases l with
      | nil => rfl
      | cons x l =>
        simp at hc
    · rfl
  refine ⟨_, e, h3, h2, ?_, ?_⟩
  · rw [List.map_map]
    apply List.map_congr_left
    intro x hx
    exact (nested_word x [] (h x hx)).2.2.1
  · rw [List.map_map]
    apply List.map_congr_left
    intro x hx
    exact (nested_word x [] (h x hx)).2.2.2

/-- A synchronisation element and a channel hopping element. -/
example : ∀ x ∈ [(false, (⟨0x1a, [1, 0, 0, 0, 0, 5]⟩ : WireIe)), (true, ⟨9, [0]⟩)],
    if x.1 then x.2.content.length < 2 ^ 10 ∧ x.2.id < 2 ^ 4
      else x.2.content.length < 2 ^ 7 ∧ x.2.id < 2 ^ 6 := by simp

/-- The full property is false: a vendor specific element is not recognised. -/
theorem C72_nested_false : ¬ C72_nested_statement := by
  intro h
  obtain ⟨items, e, h1, -, h2, -⟩ := h [(false, ⟨0x40, []⟩)] (by simp)
  have h3 : drain nestedNext 3 (nestedIter [0x00, 0x40]) = .ok (items, e) := h1
  have h4 : drain nestedNext 3 (nestedIter [0x00, 0x40]) =
      .ok ([[0x00, 0x40]], ⟨[0x00, 0x40], 2, true⟩) := rfl
  rw [h4] at h3
  simp only [ok.injEq, Prod.mk.injEq] at h3
  rw [← h3.1] at h2
  exact absurd h2 (by decide)

end Dot15d4.Props
