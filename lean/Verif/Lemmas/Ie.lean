import Verif.Model.Ie
import Verif.Spec.Ie

namespace Dot15d4
open Out

/-! ## Words -/

theorem toNat_and_mask (w : BitVec 16) (n : Nat) (h : n ≤ 16) :
    (w &&& BitVec.ofNat 16 (2 ^ n - 1)).toNat = w.toNat % 2 ^ n := by
  have : 2 ^ n - 1 < 2 ^ 16 := by
    have := Nat.pow_le_pow_right (n := 2) (by decide) h
    have : 0 < 2 ^ n := Nat.two_pow_pos n
    omega
  rw [BitVec.toNat_and, BitVec.toNat_ofNat, Nat.mod_eq_of_lt this, Nat.and_two_pow_sub_one_eq_mod]

theorem HeaderIe.wLen_eq (w : BitVec 16) : HeaderIe.wLen w = Spec.headerLen w := by
  have h1 : w &&& 0x00fe#16 = (((w >>> 1) &&& BitVec.ofNat 16 (2 ^ 7 - 1)) <<< 1) := by
    apply BitVec.eq_of_getLsbD_eq
    intro i hi
    simp only [BitVec.getLsbD_and, BitVec.getLsbD_shiftLeft, BitVec.getLsbD_ushiftRight]
    match i, hi with
    | 0, _ => simp
    | k+1, hk =>
      have this : ∀ k, k < 15 →
        (0x00fe#16).getLsbD (k+1) = (BitVec.ofNat 16 (2 ^ 7 - 1)).getLsbD k := by decide
      rw [this k (by omega)]
      simp only [Nat.add_sub_cancel, hk, decide_true, Bool.true_and, Nat.add_comm 1 k]
      simp
  have h2 := toNat_and_mask (w >>> 1) 7 (by decide)
  have h3 : ((w >>> 1) &&& BitVec.ofNat 16 (2 ^ 7 - 1)).toNat < 128 := by rw [h2]; omega
  rw [HeaderIe.wLen, h1, BitVec.toNat_shiftLeft, h2, BitVec.toNat_ushiftRight, Nat.shiftLeft_eq,
    Nat.shiftRight_eq_div_pow]
  simp only [Spec.headerLen, Spec.bits]
  omega

theorem PayloadIe.wLen_eq (w : BitVec 16) : PayloadIe.wLen w = Spec.payloadLen w := by
  have := toNat_and_mask w 10 (by decide)
  simpa [PayloadIe.wLen, Spec.payloadLen, Spec.bits] using this

theorem bits_shift_mask (w : BitVec 16) (lo n : Nat) (h : n ≤ 16) :
    ((w >>> lo) &&& BitVec.ofNat 16 (2 ^ n - 1)).toNat = Spec.bits w lo n := by
  rw [toNat_and_mask _ _ h, BitVec.toNat_ushiftRight, Nat.shiftRight_eq_div_pow, Spec.bits]

theorem NestedIe.wLong_eq (w : BitVec 16) :
    NestedIe.wLong w = decide (Spec.bits w 15 1 = 1) := by
  have := bits_shift_mask w 15 1 (by decide)
  rw [← this, NestedIe.wLong, Bool.eq_iff_iff]
  simp only [beq_iff_eq, decide_eq_true_eq, ← BitVec.toNat_inj]
  exact Iff.rfl

theorem NestedIe.wLen_eq (w : BitVec 16) : NestedIe.wLen w = Spec.nestedLen w := by
  have h1 := toNat_and_mask w 10 (by decide)
  have h2 := toNat_and_mask w 7 (by decide)
  simp only [NestedIe.wLen, Spec.nestedLen, NestedIe.wLong_eq, decide_eq_true_eq]
  split
  · simpa [Spec.bits] using h1
  · simpa [Spec.bits] using h2

/-! ## Iterators -/

/-- The suffixes at which successive elements start. -/
def ieTails (len : BitVec 16 → Nat) (stop : BitVec 16 → Bool) (d : Bytes) : List Bytes :=
  if 2 ≤ d.length then
    d :: (if stop (Spec.desc d) = true ∨ d.length ≤ len (Spec.desc d) + 2 then []
      else ieTails len stop (d.drop (len (Spec.desc d) + 2)))
  else []
termination_by d.length

/-- Total size of the elements starting at the given suffixes. -/
def ieSize (len : BitVec 16 → Nat) : List Bytes → Nat
  | [] => 0
  | t :: l => len (Spec.desc t) + 2 + ieSize len l

theorem desc_readU16 {d : Bytes} (h : 2 ≤ d.length) : readU16 d = .ok (Spec.desc d) := by
  obtain ⟨b0, b1, l, rfl⟩ := exists_cons2 h
  simp [Spec.desc]

/-- What the header and payload iterators have in common. -/
structure IsIeNext (len : BitVec 16 → Nat) (stop : BitVec 16 → Bool)
    (next : IeIter → Out (Option Bytes × IeIter)) : Prop where
  term : ∀ s, s.terminated = true → next s = .ok (none, s)
  short : ∀ s, s.terminated = false → s.offset ≤ s.data.length →
    (s.data.drop s.offset).length < 2 →
    ∃ s', next s = .ok (none, s') ∧ s'.offset = s.offset ∧ next s' = .ok (none, s')
  step : ∀ s, s.terminated = false → 2 ≤ (s.data.drop s.offset).length →
    next s = .ok (some (s.data.drop s.offset), ⟨s.data,
      s.offset + (len (Spec.desc (s.data.drop s.offset)) + 2),
      if s.offset + (len (Spec.desc (s.data.drop s.offset)) + 2) ≥ s.data.length then true
        else stop (Spec.desc (s.data.drop s.offset))⟩)

theorem drain_ie {len stop next} (H : IsIeNext len stop next) :
    ∀ (fuel : Nat) (s : IeIter), s.data.length - s.offset < fuel →
      (s.terminated = false → s.offset ≤ s.data.length) →
      ∃ s', drain next fuel s =
          .ok (if s.terminated then [] else ieTails len stop (s.data.drop s.offset), s') ∧
        s'.offset = s.offset +
          ieSize len (if s.terminated then [] else ieTails len stop (s.data.drop s.offset)) ∧
        next s' = .ok (none, s') := by
  intro fuel
  induction fuel with
  | zero => intro s h; omega
  | succ n ih =>
    intro s hfuel hoff
    cases ht : s.terminated with
    | true =>
      refine ⟨s, ?_, by simp [ieSize], H.term s ht⟩
      simp [drain, H.term s ht]
    | false =>
      have hle := hoff ht
      by_cases h2 : 2 ≤ (s.data.drop s.offset).length
      · have hs := H.step s ht h2
        have hl : 2 ≤ s.data.length - s.offset := by simpa using h2
        obtain ⟨s', h1, h3, h4⟩ := ih ⟨s.data,
          s.offset + (len (Spec.desc (s.data.drop s.offset)) + 2),
          if s.offset + (len (Spec.desc (s.data.drop s.offset)) + 2) ≥ s.data.length then true
            else stop (Spec.desc (s.data.drop s.offset))⟩ (by simp; omega)
          (by intro h; simp only at h ⊢; split at h <;> simp_all; omega)
        have hcond : (if s.offset + (len (Spec.desc (s.data.drop s.offset)) + 2) ≥ s.data.length
            then true else stop (Spec.desc (s.data.drop s.offset))) = true ↔
            (stop (Spec.desc (s.data.drop s.offset)) = true ∨
             (s.data.drop s.offset).length ≤ len (Spec.desc (s.data.drop s.offset)) + 2) := by
          rw [List.length_drop]
          split
          · simp; omega
          · constructor
            · intro h; exact Or.inl h
            · rintro (h | h)
              · exact h
              · omega
        have hit : (if (if s.offset + (len (Spec.desc (s.data.drop s.offset)) + 2) ≥
              s.data.length then true else stop (Spec.desc (s.data.drop s.offset))) = true
              then [] else ieTails len stop
                (s.data.drop (s.offset + (len (Spec.desc (s.data.drop s.offset)) + 2)))) =
            (ieTails len stop (s.data.drop s.offset)).tail := by
          conv => rhs; rw [ieTails, if_pos h2]
          simp only [List.tail_cons, List.drop_drop, hcond]
        have hcons : ieTails len stop (s.data.drop s.offset) = s.data.drop s.offset ::
            (ieTails len stop (s.data.drop s.offset)).tail := by
          conv => lhs; rw [ieTails, if_pos h2]
          conv => rhs; rw [ieTails, if_pos h2]
          rfl
        simp only [hit] at h1 h3
        refine ⟨s', ?_, ?_, h4⟩
        · simp only [drain, hs, bind_ok, h1]
          simp only [Bool.false_eq_true, if_false]
          rw [← hcons]
        · rw [h3]
          simp only [Bool.false_eq_true, if_false]
          conv => rhs; rw [hcons]
          simp only [ieSize]
          omega
      · obtain ⟨s', h1, h3, h4⟩ := H.short s ht hle (by omega)
        have : ieTails len stop (s.data.drop s.offset) = [] := by rw [ieTails, if_neg h2]
        refine ⟨s', ?_, ?_, h4⟩
        · simp [drain, h1, this]
        · simp [this, ieSize, h3]

theorem headerId_stop (w : BitVec 16) : (HeaderIe.wId w).isTermination = Spec.headerStop w := by
  have h := bits_shift_mask w 7 8 (by decide)
  simp only [Spec.headerStop, ← h]
  have : ∀ v : BitVec 8, (HeaderElementId.ofU8 v).isTermination =
      (v.toNat == 0x7e || v.toNat == 0x7f) := by decide +kernel
  rw [HeaderIe.wId, this]
  have h2 : ((w >>> 7) &&& BitVec.ofNat 16 (2 ^ 8 - 1)).toNat < 256 := by
    rw [h, Spec.bits]; omega
  have e : BitVec.ofNat 16 (2 ^ 8 - 1) = 0x00ff#16 := rfl
  rw [e] at h2 ⊢
  rw [BitVec.toNat_setWidth, Nat.mod_eq_of_lt h2]

theorem isIeNext_header : IsIeNext Spec.headerLen Spec.headerStop headerNext where
  term s h := by simp [headerNext, h]
  short s h hle h2 := by
    refine ⟨s, ?_, rfl, ?_⟩ <;>
    · have : ¬ 2 ≤ s.data.length - s.offset := by simpa using h2
      simp [headerNext, h, sliceFrom_ok hle, HeaderIe.new, this]
  step s h h2 := by
    have hle : s.offset ≤ s.data.length := by
      have : 2 ≤ s.data.length - s.offset := by simpa using h2
      omega
    have h2' : 2 ≤ s.data.length - s.offset := by simpa using h2
    simp [headerNext, h, sliceFrom_ok hle, HeaderIe.new, h2', HeaderIe.elementId, HeaderIe.len,
      desc_readU16 h2, HeaderIe.wLen_eq, headerId_stop]

theorem payload_never_stops (w : BitVec 16) :
    (PayloadIe.wId w == PayloadGroupId.payloadTermination) = false := by
  have h := bits_shift_mask w 11 3 (by decide)
  have : ∀ v : BitVec 8, v.toNat < 8 →
    (PayloadGroupId.ofU8 v == PayloadGroupId.payloadTermination) = false := by decide +kernel
  apply this
  have e : BitVec.ofNat 16 (2 ^ 3 - 1) = 0x0007#16 := rfl
  rw [e] at h
  rw [BitVec.toNat_setWidth, h, Spec.bits]
  omega

theorem isIeNext_payload : IsIeNext Spec.payloadLen (fun _ => false) payloadNext where
  term s h := by simp [payloadNext, h]
  short s h hle h2 := by
    have : ¬ 2 ≤ s.data.length - s.offset := by simpa using h2
    refine ⟨{s with terminated := true}, ?_, rfl, ?_⟩
    · simp [payloadNext, h, sliceFrom_ok hle, PayloadIe.new, this]
    · simp [payloadNext]
  step s h h2 := by
    have hle : s.offset ≤ s.data.length := by
      have : 2 ≤ s.data.length - s.offset := by simpa using h2
      omega
    have h2' : 2 ≤ s.data.length - s.offset := by simpa using h2
    simp [payloadNext, h, sliceFrom_ok hle, PayloadIe.new, h2', PayloadIe.groupId,
      PayloadIe.length, desc_readU16 h2, PayloadIe.wLen_eq, payload_never_stops]


/-! ## The two lists -/

theorem ieTails_induct (len : BitVec 16 → Nat) (stop : BitVec 16 → Bool) {P : Bytes → Prop}
    (case1 : ∀ d, 2 ≤ d.length →
      (stop (Spec.desc d) = true ∨ d.length ≤ len (Spec.desc d) + 2) → P d)
    (case2 : ∀ d, 2 ≤ d.length →
      ¬ (stop (Spec.desc d) = true ∨ d.length ≤ len (Spec.desc d) + 2) →
      P (d.drop (len (Spec.desc d) + 2)) → P d)
    (case3 : ∀ d, ¬ 2 ≤ d.length → P d) (d : Bytes) : P d := by
  induction h : d.length using Nat.strongRecOn generalizing d with
  | ind n ih =>
    subst h
    by_cases h2 : 2 ≤ d.length
    · by_cases hc : stop (Spec.desc d) = true ∨ d.length ≤ len (Spec.desc d) + 2
      · exact case1 d h2 hc
      · exact case2 d h2 hc (ih _ (by rw [List.length_drop]; omega) _ rfl)
    · exact case3 d h2

theorem mem_ieTails {len stop} {d t : Bytes} (h : t ∈ ieTails len stop d) : 2 ≤ t.length := by
  induction d using ieTails_induct len stop with
  | case1 d h2 hc =>
    rw [ieTails, if_pos h2, if_pos hc] at h
    simp at h; simpa [h] using h2
  | case2 d h2 hc ih =>
    rw [ieTails, if_pos h2, if_neg hc] at h
    rcases List.mem_cons.mp h with rfl | h
    · exact h2
    · exact ih h
  | case3 d h2 => rw [ieTails, if_neg h2] at h; simp at h

/-- The element at the head of a suffix. -/
def ieChunk (len : BitVec 16 → Nat) (t : Bytes) : Bytes := t.take (len (Spec.desc t) + 2)

theorem ieTails_split (len stop) (d : Bytes)
    (h : ieSize len (ieTails len stop d) ≤ d.length) :
    d = ((ieTails len stop d).map (ieChunk len)).flatten ++
        d.drop (ieSize len (ieTails len stop d)) ∧
    ∀ t ∈ ieTails len stop d, len (Spec.desc t) + 2 ≤ t.length := by
  induction d using ieTails_induct len stop with
  | case1 d h2 hc =>
    have e : ieTails len stop d = [d] := by rw [ieTails, if_pos h2, if_pos hc]
    rw [e] at h ⊢
    simp only [ieSize] at h ⊢
    refine ⟨?_, ?_⟩
    · simp [ieChunk, List.take_append_drop]
    · intro t ht; rw [List.mem_singleton] at ht; subst ht; omega
  | case2 d h2 hc ih =>
    have e : ieTails len stop d = d :: ieTails len stop (d.drop (len (Spec.desc d) + 2)) := by
      conv => lhs; rw [ieTails, if_pos h2, if_neg hc]
    rw [e] at h ⊢
    simp only [ieSize] at h ⊢
    obtain ⟨h1, h3⟩ := ih (by rw [List.length_drop]; omega)
    refine ⟨?_, ?_⟩
    · simp only [List.map_cons, List.flatten_cons, List.append_assoc]
      rw [List.drop_drop] at h1
      rw [← h1]
      simp [ieChunk, List.take_append_drop]
    · intro t ht
      rcases List.mem_cons.mp ht with rfl | ht
      · omega
      · exact h3 t ht
  | case3 d h2 =>
    have e : ieTails len stop d = [] := by rw [ieTails, if_neg h2]
    rw [e]; simp [ieSize]

theorem desc_take {t : Bytes} {n : Nat} (h : 2 ≤ n) : Spec.desc (t.take n) = Spec.desc t := by
  obtain ⟨m, rfl⟩ : ∃ m, n = m + 2 := ⟨n - 2, by omega⟩
  match t with
  | [] => rfl
  | [_] => rfl
  | _ :: _ :: _ => rfl

theorem ieChunk_complete {len : BitVec 16 → Nat} {t : Bytes}
    (h : len (Spec.desc t) + 2 ≤ t.length) : Spec.Complete len (ieChunk len t) := by
  have e : Spec.desc (ieChunk len t) = Spec.desc t := desc_take (by omega)
  rw [Spec.Complete, e]
  simp only [ieChunk, List.length_take]
  omega

theorem ieChunk_length {len : BitVec 16 → Nat} {t : Bytes}
    (h : len (Spec.desc t) + 2 ≤ t.length) : (ieChunk len t).length = len (Spec.desc t) + 2 := by
  simp only [ieChunk, List.length_take]; omega

namespace InformationElements

/-- Suffixes at which the header elements start. -/
def hT (d : Bytes) : List Bytes := ieTails Spec.headerLen Spec.headerStop d
/-- Total size of the header elements. -/
def hS (d : Bytes) : Nat := ieSize Spec.headerLen (hT d)
/-- Suffixes at which the payload elements start. -/
def pT (d : Bytes) : List Bytes := ieTails Spec.payloadLen (fun _ => false) (d.drop (hS d))
/-- Total size of the payload elements. -/
def pS (d : Bytes) : Nat := ieSize Spec.payloadLen (pT d)

theorem headerDrain_eq (d : Bytes) :
    ∃ s', headerDrain d = .ok (hT d, s') ∧ s'.offset = hS d ∧ headerNext s' = .ok (none, s') := by
  obtain ⟨s', h1, h2, h3⟩ := drain_ie isIeNext_header (d.length + 1) (headerIter d)
    (by simp [headerIter]) (by simp [headerIter])
  refine ⟨s', ?_, ?_, h3⟩
  · rw [headerDrain, h1]
    cases d with
    | nil => simp [headerIter, hT, ieTails]
    | cons x l => simp [headerIter, hT]
  · rw [h2]
    cases d with
    | nil => simp [headerIter, hT, ieTails, hS]
    | cons x l => simp [headerIter, hT, hS]

theorem sumLens_eq : ∀ l : List Bytes, (∀ t ∈ l, 2 ≤ t.length) →
    sumLens l = .ok (ieSize Spec.headerLen l)
  | [], _ => rfl
  | t :: l, h => by
    rw [sumLens, HeaderIe.len, desc_readU16 (h t (by simp)),
      sumLens_eq l (fun x hx => h x (by simp [hx]))]
    simp [ieSize, HeaderIe.wLen_eq]

theorem payloadIter_eq (d : Bytes) :
    payloadIter d = if hS d ≤ d.length then .ok ⟨d.drop (hS d), 0, decide (hS d ≥ d.length)⟩
      else .panic := by
  obtain ⟨s', h1, h2, h3⟩ := headerDrain_eq d
  rw [payloadIter, h1]
  simp only [bind_ok]
  rw [sumLens_eq (hT d) (fun t ht => mem_ieTails ht)]
  simp only [bind_ok]
  rw [show ieSize Spec.headerLen (hT d) = hS d from rfl]
  by_cases h : hS d ≤ d.length
  · simp [sliceFrom, h]
  · simp [sliceFrom, h]

theorem payloadDrain_eq (d : Bytes) (h : hS d ≤ d.length) :
    ∃ s', payloadDrain d = .ok (pT d, s') ∧ s'.offset = pS d ∧
      payloadNext s' = .ok (none, s') := by
  obtain ⟨s', h1, h2, h3⟩ := drain_ie isIeNext_payload (d.length + 1)
    ⟨d.drop (hS d), 0, decide (hS d ≥ d.length)⟩ (by simp; omega) (by simp)
  have e : (if (decide (hS d ≥ d.length)) = true then []
      else ieTails Spec.payloadLen (fun _ => false) ((d.drop (hS d)).drop 0)) = pT d := by
    by_cases hc : hS d ≥ d.length
    · have : d.drop (hS d) = [] := List.drop_eq_nil_of_le hc
      simp [hc, pT, this, ieTails]
    · simp [hc, pT]
  simp only [e] at h1 h2
  refine ⟨s', ?_, ?_, h3⟩
  · rw [payloadDrain, payloadIter_eq, if_pos h]; exact h1
  · rw [h2, pS]; simp

theorem checkLen_eq (d : Bytes) : checkLen d = .ok (decide (hS d + pS d ≤ d.length)) := by
  obtain ⟨s', h1, h2, h3⟩ := headerDrain_eq d
  rw [checkLen, h1]
  simp only [bind_ok, h2]
  by_cases h : hS d ≤ d.length
  · obtain ⟨s'', h4, h5, h6⟩ := payloadDrain_eq d h
    simp [h4, h5, Nat.not_lt.mpr h]
  · simp [Nat.lt_of_not_le h]
    omega

theorem new_eq (d : Bytes) : new d = if hS d + pS d ≤ d.length then .ok d else .err := by
  rw [new, checkLen_eq]; simp

theorem len_eq (d : Bytes) (h : hS d ≤ d.length) : len d = .ok (hS d + pS d) := by
  obtain ⟨s', h1, h2, h3⟩ := headerDrain_eq d
  obtain ⟨s'', h4, h5, h6⟩ := payloadDrain_eq d h
  simp [len, h1, h4, h2, h5]

end InformationElements


theorem ieTails_dropLast (len stop) (d : Bytes) :
    ∀ t ∈ (ieTails len stop d).dropLast, stop (Spec.desc t) = false := by
  induction d using ieTails_induct len stop with
  | case1 d h2 hc => rw [ieTails, if_pos h2, if_pos hc]; simp
  | case2 d h2 hc ih =>
    rw [ieTails, if_pos h2, if_neg hc]
    intro t ht
    cases hl : ieTails len stop (d.drop (len (Spec.desc d) + 2)) with
    | nil => rw [hl] at ht; simp at ht
    | cons x xs =>
      rw [hl] at ht ih
      rw [List.dropLast_cons_of_ne_nil (by simp)] at ht
      rcases List.mem_cons.mp ht with rfl | ht
      · simp only [not_or, Bool.not_eq_true] at hc; exact hc.1
      · exact ih t ht
  | case3 d h2 => rw [ieTails, if_neg h2]; simp

theorem ieTails_end (len stop) (d : Bytes)
    (h : ieSize len (ieTails len stop d) ≤ d.length) :
    (d.drop (ieSize len (ieTails len stop d))).length < 2 ∨
      ∃ t, (ieTails len stop d).getLast? = some t ∧ stop (Spec.desc t) = true := by
  induction d using ieTails_induct len stop with
  | case1 d h2 hc =>
    have e : ieTails len stop d = [d] := by rw [ieTails, if_pos h2, if_pos hc]
    rw [e] at h ⊢
    simp only [ieSize] at h ⊢
    rcases hc with hc | hc
    · exact Or.inr ⟨d, rfl, hc⟩
    · left; rw [List.length_drop]; omega
  | case2 d h2 hc ih =>
    have e : ieTails len stop d = d :: ieTails len stop (d.drop (len (Spec.desc d) + 2)) := by
      conv => lhs; rw [ieTails, if_pos h2, if_neg hc]
    rw [e] at h ⊢
    simp only [ieSize] at h ⊢
    rcases ih (by rw [List.length_drop]; omega) with h1 | ⟨t, h1, h3⟩
    · left
      rw [List.drop_drop] at h1
      exact h1
    · right
      refine ⟨t, ?_, h3⟩
      rw [List.getLast?_cons, h1]; rfl
  | case3 d h2 =>
    have e : ieTails len stop d = [] := by rw [ieTails, if_neg h2]
    rw [e]; left; simp [ieSize]; omega

theorem ieSize_chunks (len : BitVec 16 → Nat) : ∀ l : List Bytes,
    (∀ t ∈ l, len (Spec.desc t) + 2 ≤ t.length) →
    ieSize len l = ((l.map (ieChunk len)).flatten).length
  | [], _ => rfl
  | t :: l, h => by
    simp only [ieSize, List.map_cons, List.flatten_cons, List.length_append]
    rw [ieSize_chunks len l (fun x hx => h x (by simp [hx])),
      ieChunk_length (h t (by simp))]

/-! ## Nested elements -/

/-- The complete nested elements at the front of `d`. -/
def nestedChunks (d : Bytes) : List Bytes :=
  if 2 ≤ d.length ∧ Spec.nestedLen (Spec.desc d) + 2 ≤ d.length then
    d.take (Spec.nestedLen (Spec.desc d) + 2) ::
      nestedChunks (d.drop (Spec.nestedLen (Spec.desc d) + 2))
  else []
termination_by d.length

theorem NestedIe.new_eq (d : Bytes) : NestedIe.new d =
    if 2 ≤ d.length ∧ Spec.nestedLen (Spec.desc d) + 2 ≤ d.length then .ok d else .err := by
  by_cases h : 2 ≤ d.length
  · simp only [NestedIe.new, Nat.not_lt.mpr h, if_false, NestedIe.length, desc_readU16 h, bind_ok,
      NestedIe.wLen_eq, h, true_and, ge_iff_le]
  · simp [NestedIe.new, h, Nat.lt_of_not_le h]

theorem nestedNext_step (s : IeIter) (ht : s.terminated = false) (hle : s.offset ≤ s.data.length) :
    nestedNext s =
      if 2 ≤ (s.data.drop s.offset).length ∧
        Spec.nestedLen (Spec.desc (s.data.drop s.offset)) + 2 ≤ (s.data.drop s.offset).length then
        .ok (some ((s.data.drop s.offset).take
            (Spec.nestedLen (Spec.desc (s.data.drop s.offset)) + 2)),
          ⟨s.data, s.offset + (Spec.nestedLen (Spec.desc (s.data.drop s.offset)) + 2),
            decide (s.offset + (Spec.nestedLen (Spec.desc (s.data.drop s.offset)) + 2) ≥
              s.data.length)⟩)
      else .ok (none, ⟨s.data, s.offset, true⟩) := by
  rw [nestedNext, if_neg (by simp [ht]), sliceFrom_ok hle]
  simp only [bind_ok, NestedIe.new_eq]
  by_cases h : 2 ≤ (s.data.drop s.offset).length ∧
        Spec.nestedLen (Spec.desc (s.data.drop s.offset)) + 2 ≤ (s.data.drop s.offset).length
  · rw [if_pos h, if_pos h]
    simp only [toOption, bind_ok, NestedIe.length, desc_readU16 h.1, NestedIe.wLen_eq,
      sliceTo_ok h.2, ht]
    congr 3
  · rw [if_neg h, if_neg h]
    simp

theorem nestedChunks_nil : nestedChunks [] = [] := by rw [nestedChunks]; simp

theorem drain_nested : ∀ (fuel : Nat) (s : IeIter), s.data.length - s.offset < fuel →
    (s.terminated = false → s.offset ≤ s.data.length) →
    ∃ s', drain nestedNext fuel s =
        .ok (if s.terminated then [] else nestedChunks (s.data.drop s.offset), s') ∧
      nestedNext s' = .ok (none, s') := by
  intro fuel
  induction fuel with
  | zero => intro s h; omega
  | succ n ih =>
    intro s hfuel hoff
    cases ht : s.terminated with
    | true =>
      have : nestedNext s = .ok (none, s) := by simp [nestedNext, ht]
      exact ⟨s, by simp [drain, this], this⟩
    | false =>
      have hle := hoff ht
      have hs := nestedNext_step s ht hle
      by_cases h : 2 ≤ (s.data.drop s.offset).length ∧
        Spec.nestedLen (Spec.desc (s.data.drop s.offset)) + 2 ≤ (s.data.drop s.offset).length
      · rw [if_pos h] at hs
        obtain ⟨s', h1, h2⟩ := ih ⟨s.data,
          s.offset + (Spec.nestedLen (Spec.desc (s.data.drop s.offset)) + 2),
          decide (s.offset + (Spec.nestedLen (Spec.desc (s.data.drop s.offset)) + 2) ≥
              s.data.length)⟩
          (by have := h.1; rw [List.length_drop] at this; simp; omega)
          (by simp; omega)
        refine ⟨s', ?_, h2⟩
        simp only [drain, hs, bind_ok, h1]
        simp only [Bool.false_eq_true, if_false]
        conv => rhs; rw [nestedChunks, if_pos h]
        rw [List.drop_drop]
        split
        · next hc =>
          simp only [decide_eq_true_eq] at hc
          rw [List.drop_eq_nil_of_le hc, nestedChunks_nil]
        · rfl
      · rw [if_neg h] at hs
        refine ⟨⟨s.data, s.offset, true⟩, ?_, by simp [nestedNext]⟩
        have : nestedChunks (s.data.drop s.offset) = [] := by rw [nestedChunks, if_neg h]
        simp [drain, hs, this]

theorem nestedChunks_spec (d : Bytes) : ∃ rest, d = (nestedChunks d).flatten ++ rest ∧
    (∀ c ∈ nestedChunks d, Spec.Complete Spec.nestedLen c) ∧
    (rest.length < 2 ∨ rest.length < Spec.nestedLen (Spec.desc rest) + 2) := by
  induction h : d.length using Nat.strongRecOn generalizing d with
  | ind n ih =>
    subst h
    by_cases h : 2 ≤ d.length ∧ Spec.nestedLen (Spec.desc d) + 2 ≤ d.length
    · obtain ⟨rest, h1, h2, h3⟩ := ih _ (by rw [List.length_drop]; omega)
        (d.drop (Spec.nestedLen (Spec.desc d) + 2)) rfl
      refine ⟨rest, ?_, ?_, h3⟩
      · rw [nestedChunks, if_pos h, List.flatten_cons, List.append_assoc, ← h1,
          List.take_append_drop]
      · rw [nestedChunks, if_pos h]
        intro c hc
        rcases List.mem_cons.mp hc with rfl | hc
        · exact ieChunk_complete h.2
        · exact h2 c hc
    · have : nestedChunks d = [] := by rw [nestedChunks, if_neg h]
      exact ⟨d, by simp [this], by simp [this], by omega⟩

end Dot15d4
