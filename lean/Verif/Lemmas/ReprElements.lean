import Verif.Lemmas.ReprParse

/-! # Emitting and reparsing whole element lists -/

namespace Dot15d4
open Out Spec Props InformationElements

theorem exists_split {b : Bytes} {n : Nat} (h : n ≤ b.length) :
    ∃ x y, b = x ++ y ∧ x.length = n ∧ y = b.drop n :=
  ⟨b.take n, b.drop n, (List.take_append_drop n b).symm, by simp [h], rfl⟩

theorem header_list_length (l : List HeaderIeRepr) :
    ((l.map encodeHeader).flatten).length = sumBy HeaderIeRepr.bufferLen l :=
  sumBy_flatten _ _ _ fun x _ => encodeHeader_length x

theorem payload_list_length (l : List PayloadIeRepr) (h : ∀ x ∈ l, PayloadOk x) :
    ((l.map encodePayload).flatten).length = sumBy PayloadIeRepr.bufferLen l :=
  sumBy_flatten _ _ _ fun x hx => encodePayload_length x (h x hx)

theorem emitIf_true (emit : Bytes → Out Bytes) (pre mid mid' post : Bytes) (hm : mid.length = 2)
    (h : emit mid = .ok mid') (h' : mid'.length = 2) :
    InformationElementsRepr.emitIf true emit (pre ++ mid ++ post, pre.length) =
      .ok (pre ++ mid' ++ post, (pre ++ mid').length) := by
  have e : modifyAt (pre ++ mid ++ post) pre.length 2 emit = .ok (pre ++ mid' ++ post) := by
    rw [modifyAt, List.append_assoc, modifyFrom_append _ _ (mid' ++ post), List.append_assoc]
    rw [modifyTo, sliceTo_ok (by simp; omega), List.take_left' hm]
    simp [h, List.drop_left' hm]
  simp only [InformationElementsRepr.emitIf, if_true, e, bind_ok, List.length_append, h']

/-- What can be emitted: no payload follows, or there are no payload elements. -/
theorem emit_elements' (r : InformationElementsRepr) (p : Bool) (hpl : ∀ x ∈ r.payload, PayloadOk x)
    (hp : p = false ∨ r.payload = []) (b : Bytes) (hb : r.bufferLen p ≤ b.length) :
    r.emit b p = .ok (encodeElements r p ++ b.drop (r.bufferLen p)) ∧
    (encodeElements r p).length = r.bufferLen p := by
  obtain ⟨h, pl⟩ := r
  simp only at hpl hp
  have e1 : ∀ mid post : Bytes, mid.length = sumBy HeaderIeRepr.bufferLen h →
      emitAll HeaderIeRepr.bufferLen HeaderIeRepr.emit h 0 (mid ++ post) =
      .ok ((h.map encodeHeader).flatten ++ post, ((h.map encodeHeader).flatten).length) := by
    intro mid post hm
    have := emitAll_eq HeaderIeRepr.bufferLen HeaderIeRepr.emit encodeHeader h
      (fun x _ b hb => emit_header x b hb) (fun x _ => encodeHeader_length x) [] mid post hm
    rw [header_list_length]
    simpa using this
  have e2 : ∀ pre mid post : Bytes, mid.length = sumBy PayloadIeRepr.bufferLen pl →
      emitAll PayloadIeRepr.bufferLen PayloadIeRepr.emit pl pre.length (pre ++ mid ++ post) =
      .ok (pre ++ (pl.map encodePayload).flatten ++ post,
        pre.length + sumBy PayloadIeRepr.bufferLen pl) := by
    intro pre mid post hm
    exact emitAll_eq PayloadIeRepr.bufferLen PayloadIeRepr.emit encodePayload pl
      (fun x hx b hb => emit_payload x (hpl x hx) b hb)
      (fun x hx => encodePayload_length x (hpl x hx)) pre mid post hm
  have l1 := header_list_length h
  have l2 := payload_list_length pl hpl
  have ht1 : (encodeHeader .headerTermination1).length = 2 := rfl
  have ht2 : (encodeHeader .headerTermination2).length = 2 := rfl
  cases pl with
  | cons x xs =>
    have : p = false := by simpa using hp
    subst this
    have ht : InformationElementsRepr.terminations ⟨h, x :: xs⟩ false = (true, false, false) := by
      cases h <;> rfl
    have hl : InformationElementsRepr.bufferLen ⟨h, x :: xs⟩ false =
        sumBy HeaderIeRepr.bufferLen h + (2 + sumBy PayloadIeRepr.bufferLen (x :: xs)) := by
      simp [InformationElementsRepr.bufferLen, ht, HeaderIeRepr.bufferLen, HeaderIeRepr.innerLen]
      omega
    rw [hl] at hb ⊢
    obtain ⟨m1, c1, hb1, hm1, hc1⟩ := exists_split (b := b) (n := sumBy HeaderIeRepr.bufferLen h)
      (by omega)
    obtain ⟨m2, c2, hb2, hm2, hc2⟩ := exists_split (b := c1) (n := 2)
      (by rw [hc1, List.length_drop]; omega)
    obtain ⟨m3, c3, hb3, hm3, hc3⟩ := exists_split (b := c2)
      (n := sumBy PayloadIeRepr.bufferLen (x :: xs))
      (by rw [hc2, hc1, List.length_drop, List.length_drop]; omega)
    refine ⟨?_, ?_⟩
    · have hrest : b.drop (sumBy HeaderIeRepr.bufferLen h +
          (2 + sumBy PayloadIeRepr.bufferLen (x :: xs))) = c3 := by
        rw [hc3, hc2, hc1, List.drop_drop, List.drop_drop]
      rw [hrest]
      simp only [InformationElementsRepr.emit, ht]
      conv => lhs; rw [hb1]
      rw [e1 _ _ hm1]
      simp only [bind_ok]
      rw [hb2, ← List.append_assoc, emitIf_true _ _ _ _ _ hm2
        (emit_header .headerTermination1 m2 hm2) ht1]
      simp only [bind_ok, InformationElementsRepr.emitIf, Bool.false_eq_true, if_false]
      rw [hb3, ← List.append_assoc, e2 _ _ _ hm3]
      simp [encodeElements]
    · simp [encodeElements, l1, ht1, -List.map_cons, -List.flatten_cons, l2]
  | nil =>
    have hnil : ∀ q : Bytes × Nat,
        emitAll PayloadIeRepr.bufferLen PayloadIeRepr.emit [] q.2 q.1 = .ok q := fun _ => rfl
    by_cases hc : h ≠ [] ∧ p = true
    · obtain ⟨hne, rfl⟩ := hc
      have ht : InformationElementsRepr.terminations ⟨h, []⟩ true = (false, true, false) := by
        cases h
        · exact absurd rfl hne
        · rfl
      have hl : InformationElementsRepr.bufferLen ⟨h, []⟩ true =
          sumBy HeaderIeRepr.bufferLen h + 2 := by
        simp [InformationElementsRepr.bufferLen, ht, HeaderIeRepr.bufferLen, HeaderIeRepr.innerLen,
          sumBy]
      rw [hl] at hb ⊢
      obtain ⟨m1, c1, hb1, hm1, hc1⟩ := exists_split (b := b)
        (n := sumBy HeaderIeRepr.bufferLen h) (by omega)
      obtain ⟨m2, c2, hb2, hm2, hc2⟩ := exists_split (b := c1) (n := 2)
        (by rw [hc1, List.length_drop]; omega)
      refine ⟨?_, ?_⟩
      · have hrest : b.drop (sumBy HeaderIeRepr.bufferLen h + 2) = c2 := by
          rw [hc2, hc1, List.drop_drop]
        rw [hrest]
        simp only [InformationElementsRepr.emit, ht]
        conv => lhs; rw [hb1]
        rw [e1 _ _ hm1]
        simp only [bind_ok, InformationElementsRepr.emitIf, Bool.false_eq_true, if_false]
        rw [show (if True then _ else _) = InformationElementsRepr.emitIf true
          HeaderIeRepr.headerTermination2.emit ((h.map encodeHeader).flatten ++ c1,
          ((h.map encodeHeader).flatten).length) from by simp [InformationElementsRepr.emitIf]]
        rw [hb2, ← List.append_assoc, emitIf_true _ _ _ _ _ hm2
          (emit_header .headerTermination2 m2 hm2) ht2]
        simp [hnil, encodeElements, hne, emitAll]
      · simp [encodeElements, l1, ht2, hne]
    · have ht : InformationElementsRepr.terminations ⟨h, []⟩ p = (false, false, false) := by
        cases h <;> cases p <;> first | rfl | (exact absurd ⟨by simp, rfl⟩ hc)
      have hl : InformationElementsRepr.bufferLen ⟨h, []⟩ p = sumBy HeaderIeRepr.bufferLen h := by
        simp [InformationElementsRepr.bufferLen, ht, sumBy]
      have hen : encodeElements ⟨h, []⟩ p = (h.map encodeHeader).flatten := by
        have : (h ≠ [] ∧ p = true) = False := eq_false hc
        simp only [encodeElements, this, if_false]
        simp
      rw [hl] at hb ⊢
      obtain ⟨m1, c1, hb1, hm1, hc1⟩ := exists_split (b := b)
        (n := sumBy HeaderIeRepr.bufferLen h) (by omega)
      refine ⟨?_, by rw [hen, l1]⟩
      rw [← hc1, hen]
      simp only [InformationElementsRepr.emit, ht]
      conv => lhs; rw [hb1]
      rw [e1 _ _ hm1]
      simp [InformationElementsRepr.emitIf, emitAll]

theorem emit_elements (r : InformationElementsRepr) (p : Bool) (ho : ElementsOk r)
    (hp : p = false ∨ r.payload = []) (b : Bytes) (hb : r.bufferLen p ≤ b.length) :
    r.emit b p = .ok (encodeElements r p ++ b.drop (r.bufferLen p)) ∧
    (encodeElements r p).length = r.bufferLen p :=
  emit_elements' r p ho.2.2.2 hp b hb

/-! ## Reading it back -/

/-- The list of elements that `InformationElementsRepr::parse` reports for emitted elements: the
header termination is one of them, if there is room. -/
def reread (r : InformationElementsRepr) : InformationElementsRepr :=
  if r.payload = [] then r
  else { r with header := (r.header ++ [HeaderIeRepr.headerTermination1]).take 16 }

theorem parse_elements (r : InformationElementsRepr) (ho : ElementsOk r) :
    InformationElements.new (encodeElements r false) = .ok (encodeElements r false) ∧
    InformationElementsRepr.parse (encodeElements r false) = .ok (reread r) ∧
    InformationElements.len (encodeElements r false) = .ok (encodeElements r false).length := by
  obtain ⟨h16, p16, hh, hpl⟩ := ho
  obtain ⟨h, pl⟩ := r
  simp only at h16 p16 hh hpl
  have H : ∀ c ∈ h.map encodeHeader, Complete headerLen c ∧ headerStop (desc c) = false := by
    intro c hc
    obtain ⟨x, hx, rfl⟩ := List.mem_map.mp hc
    exact ⟨header_complete (HeaderOk.ne (hh x hx)), header_not_stop (hh x hx)⟩
  have P : ∀ c ∈ pl.map encodePayload, Complete payloadLen c ∧
      (fun _ => false : BitVec 16 → Bool) (desc c) = false := by
    intro c hc
    obtain ⟨x, hx, rfl⟩ := List.mem_map.mp hc
    exact ⟨payload_complete x (hpl x hx), rfl⟩
  have key : ∀ (d : Bytes) (hl : List HeaderIeRepr), d = encodeElements ⟨h, pl⟩ false →
      List.Forall₂ (fun a b => HeaderIeRepr.parse a = .ok b) (hT d) hl →
      hS d + ((pl.map encodePayload).flatten).length = d.length →
      d.drop (hS d) = (pl.map encodePayload).flatten →
      InformationElements.new d = .ok d ∧
      InformationElementsRepr.parse d = .ok ⟨hl.take 16, pl⟩ ∧
      InformationElements.len d = .ok d.length := by
    intro d hl hd hf hlen hdrop
    have hpT : pT d = tailsOf (pl.map encodePayload) [] := by
      rw [pT, hdrop, ← List.append_nil (pl.map encodePayload).flatten, ieTails_flatten _ P,
        ieTails_nil, List.append_nil]
    have hpS : pS d = ((pl.map encodePayload).flatten).length := by
      rw [pS, hpT, ieSize_tailsOf _ fun c hc => (P c hc).1]
    have hle : hS d ≤ d.length := by omega
    refine ⟨?_, ?_, by rw [len_eq d hle, hpS, hlen]⟩
    · rw [new_eq, if_pos (by rw [hpS]; omega)]
    · obtain ⟨s1, a1, -, -⟩ := headerDrain_eq d
      obtain ⟨s2, b1, -, -⟩ := payloadDrain_eq d hle
      rw [payloadDrain] at b1
      obtain ⟨it, b2, b3⟩ := bind_eq_ok.mp b1
      rw [headerDrain] at a1
      rw [InformationElementsRepr.parse, forLoop_drain _ _ _ _ _ _ _ a1,
        loop_pushOrBreak 16 _ _ hl [] hf (by simp)]
      simp only [bind_ok, b2]
      rw [forLoop_drain _ _ _ _ _ _ _ b3, loop_pushOrBreak 16 _ _ pl [] ?_ (by simp)]
      · simp [List.take_of_length_le p16]
      · rw [hpT]
        exact forall₂_tailsOf encodePayload [] pl fun x hx q => parse_payload x (hpl x hx) q
  cases pl with
  | nil =>
    have e : encodeElements ⟨h, []⟩ false = (h.map encodeHeader).flatten := by
      simp [encodeElements]
    have hTe : hT (encodeElements ⟨h, []⟩ false) = tailsOf (h.map encodeHeader) [] := by
      rw [hT, e, ← List.append_nil (h.map encodeHeader).flatten, ieTails_flatten _ H,
        ieTails_nil, List.append_nil]
    have hSe : hS (encodeElements ⟨h, []⟩ false) = ((h.map encodeHeader).flatten).length := by
      rw [hS, hTe, ieSize_tailsOf _ fun c hc => (H c hc).1]
    have := key _ h rfl (by
        rw [hTe]
        exact forall₂_tailsOf encodeHeader [] h fun x hx q => parse_header x (.inl (hh x hx)) q)
      (by rw [hSe, e]; simp) (by rw [hSe, e]; simp)
    rw [List.take_of_length_le h16] at this
    simpa [reread] using this
  | cons x xs =>
    have e : encodeElements ⟨h, x :: xs⟩ false = (h.map encodeHeader).flatten ++
        (encodeHeader .headerTermination1 ++ ((x :: xs).map encodePayload).flatten) := by
      simp [encodeElements]
    have hTe : hT (encodeElements ⟨h, x :: xs⟩ false) =
        tailsOf ((h ++ [HeaderIeRepr.headerTermination1]).map encodeHeader)
          ((x :: xs).map encodePayload).flatten := by
      rw [hT, e, ieTails_flatten _ H, ieTails_stop (header_complete (by simp)) (by decide)]
      clear H P key hh h16 e
      generalize ((x :: xs).map encodePayload).flatten = R
      induction h with
      | nil => simp [tailsOf]
      | cons y ys ih =>
        simp only [List.map_cons, tailsOf, List.cons_append, ih]
        simp
    have C : ∀ c ∈ (h ++ [HeaderIeRepr.headerTermination1]).map encodeHeader, Complete headerLen c := by
      intro c hc
      rw [List.map_append, List.mem_append] at hc
      rcases hc with hc | hc
      · exact (H c hc).1
      · simp at hc; subst hc; exact header_complete (by simp)
    have hSe : hS (encodeElements ⟨h, x :: xs⟩ false) =
        ((h.map encodeHeader).flatten ++ encodeHeader .headerTermination1).length := by
      rw [hS, hTe, ieSize_tailsOf _ C]; simp
    have := key _ (h ++ [HeaderIeRepr.headerTermination1]) rfl (by
        rw [hTe]
        refine forall₂_tailsOf encodeHeader _ (h ++ [HeaderIeRepr.headerTermination1]) fun y hy q => ?_
        rcases List.mem_append.mp hy with hy | hy
        · exact parse_header y (.inl (hh y hy)) q
        · simp at hy; exact parse_header y (.inr hy) q)
      (by rw [hSe, e]; simp; omega) (by rw [hSe, e, ← List.append_assoc, List.drop_left])
    simpa [reread] using this

end Dot15d4
