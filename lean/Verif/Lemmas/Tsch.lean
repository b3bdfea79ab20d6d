import Verif.Lemmas.Ie
import Verif.Spec.Tsch

namespace Dot15d4
open Out

/-- Number of links announced by a descriptor. -/
def sfLinks (d : Bytes) : Nat := (d.getD 3 0).toNat

theorem links_eq {d : Bytes} (h : 4 ≤ d.length) :
    SlotframeDescriptor.links d = .ok (d.getD 3 0) := by
  rw [SlotframeDescriptor.links, idx_lt (by omega)]
  simp [List.getD, show 3 < d.length by omega]

theorem SlotframeDescriptor.new_eq (d : Bytes) : SlotframeDescriptor.new d =
    if 4 ≤ d.length ∧ 4 + sfLinks d * 5 ≤ d.length then .ok d else .err := by
  by_cases h : 4 ≤ d.length
  · simp only [SlotframeDescriptor.new, Nat.not_lt.mpr h, if_false, links_eq h, bind_ok, h,
      true_and, ge_iff_le, sfLinks]
  · simp [SlotframeDescriptor.new, h, Nat.lt_of_not_le h]

/-- The suffixes at which at most `n` successive descriptors start. -/
def sfTails : Nat → Bytes → List Bytes
  | 0, _ => []
  | n+1, d =>
    if 4 ≤ d.length ∧ 4 + sfLinks d * 5 ≤ d.length then d :: sfTails n (d.drop (4 + sfLinks d * 5))
    else []

theorem sfTails_nil (n : Nat) : sfTails n [] = [] := by cases n <;> simp [sfTails]

theorem mem_sfTails : ∀ (n : Nat) (d t : Bytes), t ∈ sfTails n d →
    4 ≤ t.length ∧ 4 + sfLinks t * 5 ≤ t.length
  | 0, _, _, h => by simp [sfTails] at h
  | n+1, d, t, h => by
    rw [sfTails] at h
    split at h
    · rcases List.mem_cons.mp h with rfl | h
      · assumption
      · exact mem_sfTails n _ t h
    · simp at h

theorem slotframeNext_step (s : SlotframeIter) (ht : s.terminated = false)
    (hle : s.offset ≤ s.data.length) :
    slotframeNext s =
      if 4 ≤ (s.data.drop s.offset).length ∧
        4 + sfLinks (s.data.drop s.offset) * 5 ≤ (s.data.drop s.offset).length then
        .ok (some (s.data.drop s.offset),
          ⟨s.data, s.offset + (4 + sfLinks (s.data.drop s.offset) * 5),
           decide (s.offset + (4 + sfLinks (s.data.drop s.offset) * 5) ≥ s.data.length ∨
             s.slotframeCount + 1 ≥ s.slotframes), s.slotframes, s.slotframeCount + 1⟩)
      else .ok (none, { s with terminated := true }) := by
  rw [slotframeNext, if_neg (by simp [ht]), sliceFrom_ok hle]
  simp only [bind_ok, SlotframeDescriptor.new_eq]
  by_cases h : 4 ≤ (s.data.drop s.offset).length ∧
        4 + sfLinks (s.data.drop s.offset) * 5 ≤ (s.data.drop s.offset).length
  · rw [if_pos h, if_pos h]
    simp only [toOption, bind_ok, SlotframeDescriptor.len, links_eq h.1, ht]
    congr 3
  · rw [if_neg h, if_neg h]
    simp

theorem drain_slotframes : ∀ (fuel : Nat) (s : SlotframeIter), s.data.length - s.offset < fuel →
    (s.terminated = false → s.offset ≤ s.data.length ∧ s.slotframeCount < s.slotframes) →
    ∃ s', drain slotframeNext fuel s =
        .ok (if s.terminated then [] else
          sfTails (s.slotframes - s.slotframeCount) (s.data.drop s.offset), s') ∧
      slotframeNext s' = .ok (none, s') := by
  intro fuel
  induction fuel with
  | zero => intro s h; omega
  | succ n ih =>
    intro s hfuel hoff
    cases ht : s.terminated with
    | true =>
      have : slotframeNext s = .ok (none, s) := by simp [slotframeNext, ht]
      exact ⟨s, by simp [drain, this], this⟩
    | false =>
      obtain ⟨hle, hlt⟩ := hoff ht
      have hs := slotframeNext_step s ht hle
      obtain ⟨k, hk⟩ : ∃ k, s.slotframes - s.slotframeCount = k + 1 :=
        ⟨s.slotframes - s.slotframeCount - 1, by omega⟩
      by_cases h : 4 ≤ (s.data.drop s.offset).length ∧
        4 + sfLinks (s.data.drop s.offset) * 5 ≤ (s.data.drop s.offset).length
      · rw [if_pos h] at hs
        obtain ⟨s', h1, h2⟩ := ih ⟨s.data, s.offset + (4 + sfLinks (s.data.drop s.offset) * 5),
           decide (s.offset + (4 + sfLinks (s.data.drop s.offset) * 5) ≥ s.data.length ∨
             s.slotframeCount + 1 ≥ s.slotframes), s.slotframes, s.slotframeCount + 1⟩
          (by have := h.1; rw [List.length_drop] at this; simp; omega)
          (by simp; omega)
        refine ⟨s', ?_, h2⟩
        simp only [drain, hs, bind_ok, h1]
        simp only [Bool.false_eq_true, if_false]
        rw [hk, sfTails, if_pos h, List.drop_drop]
        split
        · next hc =>
          simp only [decide_eq_true_eq] at hc
          rcases hc with hc | hc
          · rw [List.drop_eq_nil_of_le hc, sfTails_nil]
          · have : k = 0 := by omega
            subst this; rfl
        · have : s.slotframes - (s.slotframeCount + 1) = k := by omega
          rw [this]
      · rw [if_neg h] at hs
        refine ⟨{ s with terminated := true }, ?_, by simp [slotframeNext]⟩
        have : sfTails (s.slotframes - s.slotframeCount) (s.data.drop s.offset) = [] := by
          rw [hk, sfTails, if_neg h]
        simp [drain, hs, this]

/-- Total size of descriptors. -/
def sfSize : List Bytes → Nat
  | [] => 0
  | t :: l => 4 + sfLinks t * 5 + sfSize l

theorem TschSlotframeAndLink.sumLens_eq : ∀ l : List Bytes, (∀ t ∈ l, 4 ≤ t.length) →
    TschSlotframeAndLink.sumLens l = .ok (sfSize l)
  | [], _ => rfl
  | t :: l, h => by
    rw [TschSlotframeAndLink.sumLens, SlotframeDescriptor.len, links_eq (h t (by simp)),
      TschSlotframeAndLink.sumLens_eq l (fun x hx => h x (by simp [hx]))]
    rfl

theorem sfSize_le : ∀ (n : Nat) (d : Bytes), sfSize (sfTails n d) ≤ d.length
  | 0, d => by simp [sfTails, sfSize]
  | n+1, d => by
    rw [sfTails]
    split
    · next h =>
      have := sfSize_le n (d.drop (4 + sfLinks d * 5))
      rw [List.length_drop] at this
      simp only [sfSize]; omega
    · simp [sfSize]

theorem descriptors_cons (n : Byte) (d : Bytes) :
    ∃ s', TschSlotframeAndLink.descriptors (n :: d) = .ok (sfTails n.toNat d, s') ∧
      slotframeNext s' = .ok (none, s') := by
  obtain ⟨s', h1, h2⟩ := drain_slotframes ((n :: d).length + 1) (slotframeIter n.toNat d)
    (by simp [slotframeIter]; omega) (by simp [slotframeIter]; omega)
  refine ⟨s', ?_, h2⟩
  have e : sliceFrom (n :: d) 1 = .ok d := by simp [sliceFrom]
  simp only [TschSlotframeAndLink.descriptors, TschSlotframeAndLink.descriptorIter,
    TschSlotframeAndLink.numberOfSlotframes, idx_zero, bind_ok, e, h1]
  simp only [slotframeIter, beq_iff_eq, Nat.sub_zero, List.drop_zero]
  split
  · next h => rw [h]; rfl
  · rfl

/-- `TschSlotframeAndLink::new` accepts every nonempty content. -/
theorem TschSlotframeAndLink.new_cons (n : Byte) (d : Bytes) :
    TschSlotframeAndLink.new (n :: d) = .ok (n :: d) := by
  obtain ⟨s', h1, -⟩ := descriptors_cons n d
  have hle := sfSize_le n.toNat d
  have e := TschSlotframeAndLink.sumLens_eq (sfTails n.toNat d)
    (fun t ht => (mem_sfTails _ _ t ht).1)
  simp only [TschSlotframeAndLink.new, h1, bind_ok, e]
  simp
  omega

/-! ## Links -/

/-- `m` successive suffixes, five bytes apart. -/
def linkTails : Nat → Bytes → List Bytes
  | 0, _ => []
  | m+1, d => d :: linkTails m (d.drop 5)

theorem drain_links : ∀ (m fuel : Nat) (d : Bytes) (off : Nat), d.length - off = 5 * (m+1) →
    m + 1 < fuel →
    ∃ s', drain linkNext fuel ⟨d, off, false⟩ = .ok (linkTails (m+1) (d.drop off), s') ∧
      linkNext s' = .ok (none, s') := by
  intro m
  induction m with
  | zero =>
    intro fuel d off h hf
    obtain ⟨f, rfl⟩ : ∃ f, fuel = f + 2 := ⟨fuel - 2, by omega⟩
    refine ⟨⟨d, off + 5, true⟩, ?_, by simp [linkNext]⟩
    have hc : off + 5 ≥ d.length := by omega
    simp [drain, linkNext, sliceFrom_ok (show off ≤ d.length by omega), hc, linkTails]
  | succ m ih =>
    intro fuel d off h hf
    obtain ⟨f, rfl⟩ : ∃ f, fuel = f + 1 := ⟨fuel - 1, by omega⟩
    obtain ⟨s', h1, h2⟩ := ih f d (off + 5) (by omega) (by omega)
    refine ⟨s', ?_, h2⟩
    have hc : ¬ off + 5 ≥ d.length := by omega
    rw [drain, linkNext]
    simp only [Bool.false_eq_true, if_false, sliceFrom_ok (show off ≤ d.length by omega), bind_ok,
      hc, decide_false, h1]
    conv => rhs; rw [linkTails, List.drop_drop]

theorem drain_links_empty (fuel : Nat) (h : 2 ≤ fuel) :
    drain linkNext fuel ⟨[], 0, false⟩ = .ok ([[]], ⟨[], 5, true⟩) := by
  obtain ⟨f, rfl⟩ : ∃ f, fuel = f + 2 := ⟨fuel - 2, by omega⟩
  simp [drain, linkNext, sliceFrom]

theorem linkIter_eq {d : Bytes} (h : 4 ≤ d.length ∧ 4 + sfLinks d * 5 ≤ d.length) :
    SlotframeDescriptor.linkIter d = .ok ⟨(d.drop 4).take (sfLinks d * 5), 0, false⟩ := by
  rw [SlotframeDescriptor.linkIter, sliceFrom_ok h.1, links_eq h.1]
  simp only [bind_ok]
  rw [show (d.getD 3 0).toNat = sfLinks d from rfl,
    sliceTo_ok (by rw [List.length_drop]; omega)]
  rfl

end Dot15d4
