import Verif.Model.Arbitrary
import Verif.Spec.Arbitrary
import Verif.Props.EmitExact

/-!
# C83: what the fuzz target `repr` can and cannot find

The generators give exactly the frames of `Spec.FrameMade`, never overflow their vectors, and so the
crashes of the target are those of `EmittableAll` among these frames.
-/

namespace Dot15d4.Props
open Out Spec Fuzz

/-! ## The generators, step by step -/

theorem gen_pure {α : Type} (a : α) (r : Res α) : (pure a : Gen α) r ↔ r = .done a := Iff.rfl

theorem gen_done {α β : Type} (g : Gen α) (k : α → Gen β) (b : β) :
    (g >>= k) (.done b) ↔ ∃ a, g (.done a) ∧ k a (.done b) := by
  show Gen.bind g k (.done b) ↔ _
  simp [Gen.bind]

theorem gen_full {α β : Type} (g : Gen α) (k : α → Gen β) :
    (g >>= k) .full ↔ g .full ∨ ∃ a, g (.done a) ∧ k a .full := by
  show Gen.bind g k .full ↔ _
  simp [Gen.bind, or_comm]

theorem gen_format {α β : Type} (g : Gen α) (k : α → Gen β) :
    (g >>= k) .format ↔ g .format ∨ ∃ a, g (.done a) ∧ k a .format := by
  show Gen.bind g k .format ↔ _
  simp [Gen.bind, or_comm]

theorem range_done (lo hi n : Nat) : intInRange lo hi (.done n) ↔ lo ≤ n ∧ n ≤ hi := by
  constructor
  · rintro ⟨m, h1, h2, e⟩
    cases e
    exact ⟨h1, h2⟩
  · rintro ⟨h1, h2⟩
    exact ⟨n, h1, h2, rfl⟩

theorem range_full (lo hi : Nat) : ¬ intInRange lo hi .full := by
  rintro ⟨m, h1, h2, e⟩
  cases e

theorem any_done {α : Type} (a : α) : anyOf α (.done a) := ⟨a, rfl⟩

theorem any_full {α : Type} : ¬ anyOf α .full := by
  rintro ⟨a, e⟩
  cases e

theorem push_done {α : Type} (cap : Nat) (g : Gen α) (n : Nat) (l r : List α)
    (h : l.length + n ≤ cap) : pushMany cap g n l (.done r) ↔
      ∃ m, r = l ++ m ∧ m.length = n ∧ ∀ x ∈ m, g (.done x) := by
  induction n generalizing l with
  | zero =>
    rw [pushMany, gen_pure]
    constructor
    · intro e
      cases e
      exact ⟨[], by simp, rfl, by simp⟩
    · rintro ⟨m, rfl, hm, -⟩
      rw [List.length_eq_zero_iff] at hm
      rw [hm, List.append_nil]
  | succ n ih =>
    rw [pushMany, gen_done]
    have hl : l.length < cap := by omega
    simp only [if_pos hl]
    constructor
    · rintro ⟨x, hx, h'⟩
      obtain ⟨m, rfl, hm, hg⟩ := (ih (l ++ [x]) (by simp; omega)).mp h'
      refine ⟨x :: m, by simp, by simp [hm], ?_⟩
      intro y hy
      rcases List.mem_cons.mp hy with rfl | hy
      · exact hx
      · exact hg y hy
    · rintro ⟨m, rfl, hm, hg⟩
      cases m with
      | nil => simp at hm
      | cons x m =>
        refine ⟨x, hg x (by simp), (ih (l ++ [x]) (by simp; omega)).mpr ⟨m, by simp, by simpa using hm, ?_⟩⟩
        intro y hy
        exact hg y (by simp [hy])

theorem push_full {α : Type} (cap : Nat) (g : Gen α) (n : Nat) (l : List α)
    (h : l.length + n ≤ cap) (hg : ¬ g .full) : ¬ pushMany cap g n l .full := by
  induction n generalizing l with
  | zero =>
    rw [pushMany, gen_pure]
    intro e; cases e
  | succ n ih =>
    rw [pushMany, gen_full]
    have hl : l.length < cap := by omega
    simp only [if_pos hl]
    rintro (h' | ⟨x, -, h'⟩)
    · exact hg h'
    · exact ih (l ++ [x]) (by simp; omega) h'

/-! ## What they give -/

theorem linkOption_done (b : Byte) : linkOption (.done b) ↔ b.toNat < 32 := by
  rw [linkOption, gen_done]
  have key : ∀ b : Byte, b &&& 0xe0#8 = 0 ↔ b.toNat < 32 := by decide
  constructor
  · rintro ⟨a, -, h⟩
    split at h
    · rename_i ha
      cases h
      exact (key b).mp ha
    · cases h
  · intro h
    refine ⟨b, any_done b, ?_⟩
    rw [if_pos ((key b).mpr h)]
    exact (gen_pure _ _).mpr rfl

theorem linkOption_full : ¬ linkOption .full := by
  rw [linkOption, gen_full]
  rintro (h | ⟨a, -, h⟩)
  · exact any_full h
  · split at h <;> cases h

theorem link_done (k : LinkInformationRepr) :
    linkInformation (.done k) ↔ k.linkOptions.toNat < 32 := by
  simp only [linkInformation, gen_done, gen_pure, Res.done.injEq]
  constructor
  · rintro ⟨t, -, c, -, o, ho, rfl⟩
    exact (linkOption_done o).mp ho
  · intro h
    exact ⟨k.timeslot, any_done _, k.channelOffset, any_done _, k.linkOptions,
      (linkOption_done _).mpr h, rfl⟩

theorem link_full : ¬ linkInformation .full := by
  simp only [linkInformation, gen_full, gen_pure, reduceCtorEq, and_false, exists_false, or_false]
  rintro (h | ⟨t, -, h | ⟨c, -, h⟩⟩)
  · exact any_full h
  · exact any_full h
  · exact linkOption_full h

theorem slotframe_done (s : SlotframeDescriptorRepr) : slotframe (.done s) ↔ SlotframeMade s := by
  simp only [slotframe, gen_done, gen_pure, Res.done.injEq, range_done, SlotframeMade]
  constructor
  · rintro ⟨n, ⟨-, hn⟩, l, hl, h, ⟨-, hh⟩, z, ⟨-, hz⟩, rfl⟩
    obtain ⟨m, rfl, hm, hg⟩ := (push_done _ _ _ _ _ (by simpa using hn)).mp hl
    refine ⟨?_, ?_, ?_, ?_⟩
    · simp only [BitVec.toNat_ofNat]; omega
    · simp only [BitVec.toNat_ofNat]; omega
    · simp only [List.nil_append]; omega
    · intro k hk
      exact (link_done k).mp (hg k (by simpa using hk))
  · rintro ⟨h1, h2, h3, h4⟩
    refine ⟨s.links.length, ⟨Nat.zero_le _, h3⟩, s.links, ?_, s.handle.toNat, ⟨Nat.zero_le _, h1⟩,
      s.size.toNat, ⟨Nat.zero_le _, h2⟩, ?_⟩
    · exact (push_done _ _ _ _ _ (by simpa using h3)).mpr
        ⟨s.links, rfl, rfl, fun k hk => (link_done k).mpr (h4 k hk)⟩
    · simp

theorem slotframe_full : ¬ slotframe .full := by
  simp only [slotframe, gen_full, gen_pure, range_done, range_full, reduceCtorEq, and_false,
    exists_false, or_false, false_or]
  rintro ⟨n, ⟨-, hn⟩, h⟩
  exact push_full _ _ _ _ (by simpa using hn) link_full h

theorem slotframes_done (r : TschSlotframeAndLinkRepr) : slotframes (.done r) ↔
    r.slotframeDescriptors.length ≤ 2 ∧ ∀ s ∈ r.slotframeDescriptors, SlotframeMade s := by
  simp only [slotframes, gen_done, gen_pure, Res.done.injEq, range_done]
  constructor
  · rintro ⟨n, ⟨-, hn⟩, l, hl, rfl⟩
    obtain ⟨m, rfl, hm, hg⟩ := (push_done _ _ _ _ _ (by simp only [List.length_nil]; omega)).mp hl
    refine ⟨by simpa [hm] using hn, ?_⟩
    intro s hs
    exact (slotframe_done s).mp (hg s (by simpa using hs))
  · rintro ⟨h1, h2⟩
    refine ⟨_, ⟨Nat.zero_le _, h1⟩, r.slotframeDescriptors, ?_, rfl⟩
    exact (push_done _ _ _ _ _ (by simp only [List.length_nil]; omega)).mpr
      ⟨_, rfl, rfl, fun s hs => (slotframe_done s).mpr (h2 s hs)⟩

theorem slotframes_full : ¬ slotframes .full := by
  simp only [slotframes, gen_full, gen_pure, range_done, range_full, reduceCtorEq, and_false,
    exists_false, or_false, false_or]
  rintro ⟨n, ⟨-, hn⟩, h⟩
  exact push_full _ _ _ _ (by simp only [List.length_nil]; omega) slotframe_full h

theorem us_toInt (n : Nat) (h : n < 100000) : (micros n).asUs.toInt = n := by
  simp only [micros, Duration.fromUs, Duration.asUs]
  rw [BitVec.toInt_eq_toNat_of_lt] <;> simp only [BitVec.toNat_ofNat] <;> omega

theorem us_of_micros {lo hi : Int} {d : Duration} (h : Micros lo hi d) (h0 : 0 ≤ lo) :
    micros d.asUs.toNat = d ∧ lo ≤ (d.asUs.toNat : Int) ∧ (d.asUs.toNat : Int) ≤ hi := by
  obtain ⟨h1, h2⟩ := h
  refine ⟨by simp [micros, Duration.fromUs, Duration.asUs], ?_⟩
  have e : d.asUs.toInt = d.asUs.toNat := by
    rw [BitVec.toInt_eq_toNat_cond]
    split
    · rfl
    · rename_i hc
      rw [BitVec.toInt_eq_toNat_cond, if_neg hc] at h1
      have := d.asUs.isLt
      omega
  omega

theorem us_micros {lo hi : Int} {n : Nat} (h : lo ≤ n ∧ (n : Int) ≤ hi ∧ hi < 100000) :
    Micros lo hi (micros n) := by
  rw [Micros, us_toInt n (by omega)]
  omega

/-- Half of a small duration, subtracted. -/
theorem rxOffset_toInt (o g : Nat) (ho : o < 100000) (hg : g < 100000) :
    ((micros o).sub (.fromUs ((micros g).asUs.sdiv 2))).asUs.toInt = (o : Int) - (g : Int) / 2 := by
  have e2 : ((micros g).asUs.sdiv 2).toInt = (g : Int) / 2 := by
    rw [BitVec.toInt_sdiv, us_toInt g hg]
    have : (2 : BitVec 64).toInt = 2 := by decide
    rw [this, Int.tdiv_eq_ediv_of_nonneg (by omega)]
    rw [Int.bmod_eq_of_le] <;> omega
  show ((micros o).asUs - ((micros g).asUs.sdiv 2)).toInt = _
  rw [BitVec.toInt_sub, us_toInt o ho, e2]
  rw [Int.bmod_eq_of_le] <;> omega

theorem timeslot_done (t : TschTimeslotRepr) : timeslot (.done t) ↔ TimeslotMade t := by
  rw [timeslot, gen_done]
  simp only [range_done]
  constructor
  · rintro ⟨k, ⟨-, hk⟩, h⟩
    split at h
    · cases h
      rfl
    · simp only [gen_done, gen_pure, Res.done.injEq, range_done] at h
      obtain ⟨id, hid, g, hg, o, ho, x1, h1, x2, h2, x3, h3, x4, h4, x5, h5, x6, h6, x7, h7, x8, h8, rfl⟩ := h
      refine ⟨?_, us_micros (by omega), us_micros (n := 128) (by omega),
        us_micros (by omega), us_micros (by omega), us_micros (by omega),
        us_micros (by omega), us_micros (by omega), us_micros (by omega),
        us_micros (by omega), us_micros (by omega), ?_, ?_, ?_⟩
      · intro e
        have := congrArg BitVec.toNat e
        simp only [TschTimeslotTimings.setTimeslotLength, TschTimeslotTimings.setMaxTx,
          TschTimeslotTimings.setMaxAck, TschTimeslotTimings.setRxTx, TschTimeslotTimings.setAckWait,
          TschTimeslotTimings.setRxWait, TschTimeslotTimings.setTxAckDelay,
          TschTimeslotTimings.setRxAckDelay, TschTimeslotTimings.setRxOffset,
          TschTimeslotTimings.setTxOffset, TschTimeslotTimings.setCca,
          TschTimeslotTimings.setCcaOffset, TschTimeslotTimings.new, BitVec.toNat_ofNat] at this
        have e0 : (0 : Byte).toNat = 0 := rfl
        rw [e0] at this
        omega
      · show ((micros o).sub (.fromUs ((micros g).asUs.sdiv 2))).asUs.toInt =
          (micros o).asUs.toInt - (micros g).asUs.toInt / 2
        rw [rxOffset_toInt o g (by omega) (by omega), us_toInt o (by omega), us_toInt g (by omega)]
      · exact us_micros (n := 10000 + 1000 * x8) (by omega)
      · show (micros (10000 + 1000 * x8)).asUs.toInt % 1000 = 0
        rw [us_toInt _ (by omega)]
        omega
  · intro h
    cases t with
    | default i =>
      refine ⟨0, by omega, ?_⟩
      rw [if_pos rfl, show i = 0 from h]
      exact (gen_pure _ _).mpr rfl
    | custom t =>
      refine ⟨1, by omega, ?_⟩
      rw [if_neg (by omega)]
      simp only [gen_done, gen_pure, Res.done.injEq, range_done]
      obtain ⟨hid, h1, hc, ho, h2, h3, hg, h4, h5, h6, h7, hr, hl, hm⟩ := h
      have b1 := us_of_micros h1 (by omega)
      have bc := us_of_micros hc (by omega)
      have bo := us_of_micros ho (by omega)
      have b2 := us_of_micros h2 (by omega)
      have b3 := us_of_micros h3 (by omega)
      have bg := us_of_micros hg (by omega)
      have b4 := us_of_micros h4 (by omega)
      have b5 := us_of_micros h5 (by omega)
      have b6 := us_of_micros h6 (by omega)
      have b7 := us_of_micros h7 (by omega)
      have bl := us_of_micros hl (by omega)
      have hid' : t.id.toNat ≠ 0 := fun e => hid (BitVec.eq_of_toNat_eq e)
      refine ⟨t.id.toNat, ⟨by omega, by have := t.id.isLt; omega⟩, t.rxWait.asUs.toNat, by omega,
        t.txOffset.asUs.toNat, by omega, t.ccaOffset.asUs.toNat, by omega,
        t.rxAckDelay.asUs.toNat, by omega, t.txAckDelay.asUs.toNat, by omega,
        t.ackWait.asUs.toNat, by omega, t.rxTx.asUs.toNat, by omega, t.maxAck.asUs.toNat, by omega,
        t.maxTx.asUs.toNat, by omega, (t.timeslotLength.asUs.toNat - 10000) / 1000, by omega, ?_⟩
      have el : 10000 + 1000 * ((t.timeslotLength.asUs.toNat - 10000) / 1000) =
          t.timeslotLength.asUs.toNat := by
        have e := us_toInt t.timeslotLength.asUs.toNat (by omega)
        rw [bl.1] at e
        omega
      have ec : micros 128 = t.cca := by
        rw [← bc.1]
        congr 1
        omega
      have er : (micros t.txOffset.asUs.toNat).sub
          (.fromUs ((micros t.rxWait.asUs.toNat).asUs.sdiv 2)) = t.rxOffset := by
        have e := rxOffset_toInt t.txOffset.asUs.toNat t.rxWait.asUs.toNat (by omega) (by omega)
        have e1 := us_toInt t.txOffset.asUs.toNat (by omega)
        have e2 := us_toInt t.rxWait.asUs.toNat (by omega)
        rw [bo.1] at e1
        rw [bg.1] at e2
        rw [e1, e2] at hr
        rw [← hr] at e
        have := BitVec.eq_of_toInt_eq e
        cases hx : t.rxOffset
        cases hy : (micros t.txOffset.asUs.toNat).sub (.fromUs ((micros t.rxWait.asUs.toNat).asUs.sdiv 2))
        rw [hx, hy] at this
        simp only [Duration.asUs] at this
        rw [this]
      rw [er, el, b1.1, ec, bo.1, b2.1, b3.1, bg.1, b4.1, b5.1, b6.1, b7.1, bl.1]
      cases t
      simp [TschTimeslotTimings.setTimeslotLength, TschTimeslotTimings.setMaxTx,
          TschTimeslotTimings.setMaxAck, TschTimeslotTimings.setRxTx, TschTimeslotTimings.setAckWait,
          TschTimeslotTimings.setRxWait, TschTimeslotTimings.setTxAckDelay,
          TschTimeslotTimings.setRxAckDelay, TschTimeslotTimings.setRxOffset,
          TschTimeslotTimings.setTxOffset, TschTimeslotTimings.setCca,
          TschTimeslotTimings.setCcaOffset, TschTimeslotTimings.new]

theorem timeslot_full : ¬ timeslot .full := by
  rw [timeslot, gen_full]
  rintro (h | ⟨k, -, h⟩)
  · exact range_full _ _ h
  · split at h
    · cases h
    · simp only [gen_full, gen_pure, range_full, reduceCtorEq, and_false, exists_false, or_false] at h

theorem nested_done (x : NestedIeRepr) : nested (.done x) ↔ NestedMade x := by
  rw [nested, gen_done]
  simp only [range_done]
  constructor
  · rintro ⟨k, -, h⟩
    split at h <;> simp only [gen_done, gen_pure, Res.done.injEq] at h <;> obtain ⟨r, hr, rfl⟩ := h
    · trivial
    · exact (timeslot_done r).mp hr
    · exact (slotframes_done r).mp hr
    · trivial
  · intro h
    cases x with
    | tschSynchronization r => exact ⟨0, by omega, (gen_done _ _ _).mpr ⟨r, any_done r, rfl⟩⟩
    | tschTimeslot r => exact ⟨1, by omega, (gen_done _ _ _).mpr ⟨r, (timeslot_done r).mpr h, rfl⟩⟩
    | tschSlotframeAndLink r =>
      exact ⟨2, by omega, (gen_done _ _ _).mpr ⟨r, (slotframes_done r).mpr h, rfl⟩⟩
    | channelHopping r => exact ⟨3, by omega, (gen_done _ _ _).mpr ⟨r, any_done r, rfl⟩⟩

theorem nested_full : ¬ nested .full := by
  rw [nested, gen_full]
  rintro (h | ⟨k, -, h⟩)
  · exact range_full _ _ h
  · split at h <;> rw [gen_full] at h <;> rcases h with h | ⟨r, -, h⟩
    · exact any_full h
    · cases h
    · exact timeslot_full h
    · cases h
    · exact slotframes_full h
    · cases h
    · exact any_full h
    · cases h

theorem payloadElement_done (x : PayloadIeRepr) : Fuzz.payloadElement (.done x) ↔ PayloadMade x := by
  rw [Fuzz.payloadElement, gen_done]
  simp only [range_done]
  constructor
  · rintro ⟨k, -, h⟩
    split at h
    · cases h
      trivial
    · simp only [gen_done, gen_pure, Res.done.injEq, range_done] at h
      obtain ⟨n, ⟨-, hn⟩, l, hl, rfl⟩ := h
      obtain ⟨m, e, hm, hg⟩ := (push_done _ _ _ _ _ (by simp only [List.length_nil]; omega)).mp hl
      rw [List.nil_append] at e
      subst e
      exact ⟨by show l.length ≤ 15; omega,
        fun y hy => (nested_done y).mp (hg y hy)⟩
  · intro h
    cases x with
    | payloadTermination =>
      refine ⟨0, by omega, ?_⟩
      rw [if_pos rfl]
      exact (gen_pure _ _).mpr rfl
    | mlme l =>
      refine ⟨1, by omega, ?_⟩
      rw [if_neg (by omega)]
      simp only [gen_done, gen_pure, Res.done.injEq, range_done]
      refine ⟨l.length, ⟨Nat.zero_le _, h.1⟩, l, ?_, rfl⟩
      have := h.1
      exact (push_done _ _ _ _ _ (by simp only [List.length_nil]; omega)).mpr
        ⟨l, rfl, rfl, fun y hy => (nested_done y).mpr (h.2 y hy)⟩

theorem payloadElement_full : ¬ Fuzz.payloadElement .full := by
  rw [Fuzz.payloadElement, gen_full]
  rintro (h | ⟨k, -, h⟩)
  · exact range_full _ _ h
  · split at h
    · cases h
    · simp only [gen_full, gen_pure, range_done, range_full, reduceCtorEq, and_false, exists_false,
        or_false, false_or] at h
      obtain ⟨n, ⟨-, hn⟩, h⟩ := h
      exact push_full _ _ _ _ (by simp only [List.length_nil]; omega) nested_full h

theorem elements_done (r : InformationElementsRepr) : elements (.done r) ↔
    r.header.length ≤ 15 ∧ r.payload.length ≤ 15 ∧ ∀ x ∈ r.payload, PayloadMade x := by
  simp only [elements, gen_done, gen_pure, Res.done.injEq, range_done]
  constructor
  · rintro ⟨n, ⟨-, hn⟩, l, hl, n', ⟨-, hn'⟩, l', hl', rfl⟩
    obtain ⟨m, rfl, hm, -⟩ := (push_done _ _ _ _ _ (by simp only [List.length_nil]; omega)).mp hl
    obtain ⟨m', rfl, hm', hg⟩ := (push_done _ _ _ _ _ (by simp only [List.length_nil]; omega)).mp hl'
    refine ⟨?_, ?_, ?_⟩
    · show l.length ≤ 15; omega
    · show l'.length ≤ 15; omega
    intro x hx
    exact (payloadElement_done x).mp (hg x (by simpa using hx))
  · rintro ⟨h1, h2, h3⟩
    refine ⟨_, ⟨Nat.zero_le _, h1⟩, r.header, ?_, _, ⟨Nat.zero_le _, h2⟩, r.payload, ?_, rfl⟩
    · exact (push_done _ _ _ _ _ (by simp only [List.length_nil]; omega)).mpr
        ⟨_, rfl, rfl, fun x _ => any_done x⟩
    · exact (push_done _ _ _ _ _ (by simp only [List.length_nil]; omega)).mpr
        ⟨_, rfl, rfl, fun x hx => (payloadElement_done x).mpr (h3 x hx)⟩

theorem elements_full : ¬ elements .full := by
  simp only [elements, gen_full, gen_pure, range_done, range_full, reduceCtorEq, and_false,
    exists_false, or_false, false_or]
  rintro ⟨n, ⟨-, hn⟩, h | ⟨l, -, m, ⟨-, hm⟩, h⟩⟩
  · exact push_full _ _ _ _ (by simp only [List.length_nil]; omega) any_full h
  · exact push_full _ _ _ _ (by simp only [List.length_nil]; omega) payloadElement_full h

/-- **C83**: the fuzz target `repr` is given exactly the frames of `FrameMade`. -/
theorem C83_frames (f : FrameRepr) : Fuzz.frame (.done f) ↔ FrameMade f := by
  simp only [Fuzz.frame, gen_done, gen_pure, Res.done.injEq, Fuzz.option]
  constructor
  · rintro ⟨fc, -, s, -, a, -, ie, ⟨b, -, hb⟩, p, -, rfl⟩
    cases b with
    | false =>
      cases hb
      intro r hr
      cases hr
    | true =>
      obtain ⟨r, hr, e⟩ := (gen_done _ _ _).mp hb
      cases e
      intro r' e
      cases e
      exact (elements_done r).mp hr
  · intro h
    refine ⟨f.frameControl, any_done _, f.sequenceNumber, any_done _, f.addressingFields, any_done _,
      f.informationElements, ?_, f.payload, any_done _, rfl⟩
    cases hi : f.informationElements with
    | none => exact ⟨false, any_done _, rfl⟩
    | some r => exact ⟨true, any_done _, (gen_done _ _ _).mpr ⟨r, (elements_done r).mpr (h r hi), rfl⟩⟩

/-- **C83**: no generator pushes onto a full vector. -/
theorem C83_never_full : ¬ Fuzz.frame .full := by
  simp only [Fuzz.frame, gen_full, gen_pure, any_full, Fuzz.option, reduceCtorEq, and_false,
    exists_false, or_false, false_or]
  rintro ⟨fc, -, s, -, a, -, b, -, h⟩
  cases b with
  | false => cases h
  | true =>
    rcases (gen_full _ _).mp h with h | ⟨r, -, h⟩
    · exact elements_full h
    · cases h

/-- **C83**: an input may be refused, for undefined link options. -/
theorem C83_refuses : Fuzz.frame .format := by
  have h1 : linkOption .format := (gen_format _ _).mpr (.inr ⟨0xff#8, any_done _, rfl⟩)
  have h2 : linkInformation .format := by
    simp only [linkInformation, gen_format]
    exact .inr ⟨0, any_done _, .inr ⟨0, any_done _, .inl h1⟩⟩
  have p1 : ∀ {α : Type} {cap : Nat} {g : Gen α}, g .format → pushMany cap g 1 [] .format := by
    intro α cap g h
    rw [pushMany]
    exact (gen_format _ _).mpr (.inl h)
  have h3 : slotframe .format := by
    simp only [slotframe, gen_format]
    exact .inr ⟨1, (range_done _ _ _).mpr (by omega), .inl (p1 h2)⟩
  have h4 : slotframes .format := by
    simp only [slotframes, gen_format]
    exact .inr ⟨1, (range_done _ _ _).mpr (by omega), .inl (p1 h3)⟩
  have h5 : nested .format := (gen_format _ _).mpr
    (.inr ⟨2, (range_done _ _ _).mpr (by omega), (gen_format _ _).mpr (.inl h4)⟩)
  have h6 : Fuzz.payloadElement .format := (gen_format _ _).mpr
    (.inr ⟨1, (range_done _ _ _).mpr (by omega), (gen_format _ _).mpr
      (.inr ⟨1, (range_done _ _ _).mpr (by omega), (gen_format _ _).mpr (.inl (p1 h5))⟩)⟩)
  have h7 : elements .format := by
    simp only [elements, gen_format]
    exact .inr ⟨0, (range_done _ _ _).mpr (by omega), .inr ⟨[], rfl, .inr ⟨1,
      (range_done _ _ _).mpr (by omega), .inl (p1 h6)⟩⟩⟩
  have h8 : Fuzz.option elements .format := (gen_format _ _).mpr
    (.inr ⟨true, any_done _, (gen_format _ _).mpr (.inl h7)⟩)
  simp only [Fuzz.frame, gen_format]
  exact .inr ⟨⟨.data, false, false, false, false, false, false, .short, .short, .v2006⟩, any_done _,
    .inr ⟨none, any_done _, .inr ⟨none, any_done _, .inl h8⟩⟩⟩

/-! ## What the target can find -/

/-- **C83**: the generated timeslots all have an encoding, of 1 or 25 octets. -/
theorem C83_timeslots (t : TschTimeslotRepr) (h : timeslot (.done t)) :
    TimeslotOk t ∧ (t.bufferLen = 1 ∨ t.bufferLen = 25) := by
  replace h := (timeslot_done t).mp h
  cases t with
  | default i => exact ⟨h, .inl rfl⟩
  | custom t =>
    obtain ⟨hid, h1, hc, ho, h2, h3, hg, h4, h5, h6, h7, hr, hl, hm⟩ := h
    refine ⟨?_, .inr ?_⟩
    · simp only [TimeslotOk, DurFits]
      simp only [Micros] at *
      exact ⟨hid, by omega, by omega, by omega, by omega, by omega, by omega, by omega, by omega,
        by omega, by omega, by omega, by omega⟩
    · have b7 := us_of_micros h7 (by omega)
      have bl := us_of_micros hl (by omega)
      simp only [TschTimeslotRepr.bufferLen, BitVec.toNat_setWidth]
      rw [if_neg]
      simp only [Bool.or_eq_true, decide_eq_true_eq]
      omega

/-- Non-vacuity for `C83_timeslots`: the short form is generated. -/
example : timeslot (.done (.default 0)) := (timeslot_done _).mpr rfl

/-- Timings with a length of more than 65535 µs, which take 27 octets. -/
def wideTimings : TschTimeslotTimings :=
  (TschTimeslotTimings.new 1 (.fromUs 2200)).setTimeslotLength (.fromUs 70000)

/-- **C83**: so the target never emits the 27-octet form, nor sixteen elements of a kind, nor three
slotframes, although all of these have an encoding. -/
theorem C83_blind :
    (TimeslotOk (.custom wideTimings) ∧ TschTimeslotRepr.bufferLen (.custom wideTimings) = 27 ∧
      ¬ timeslot (.done (.custom wideTimings))) ∧
    (∃ r : TschSlotframeAndLinkRepr, NestedOk (.tschSlotframeAndLink r) ∧ ¬ slotframes (.done r)) ∧
    ∃ r : InformationElementsRepr, ElementsOk r ∧ ¬ elements (.done r) := by
  refine ⟨⟨by decide, by decide, ?_⟩, ?_, ?_⟩
  · rw [timeslot_done]
    rintro ⟨-, -, -, -, -, -, -, -, -, -, -, -, h, -⟩
    have : ¬ Micros 10000 20000 wideTimings.timeslotLength := by
      rintro ⟨-, h⟩
      revert h
      decide
    exact this h
  · let s : SlotframeDescriptorRepr := ⟨0, 7, [⟨0, 0, 1⟩]⟩
    refine ⟨⟨[s, s, s]⟩, by decide, ?_⟩
    rw [slotframes_done]
    rintro ⟨h, -⟩
    simp at h
  · refine ⟨⟨List.replicate 16 (.timeCorrection ⟨⟨5⟩, false⟩), []⟩, by decide, ?_⟩
    rw [elements_done]
    rintro ⟨h, -⟩
    simp at h

/-- **C83**: a frame with addressing fields and an unknown addressing mode passes the validation, if it
is not an empty data frame, and crashes the target. -/
theorem C83_unknown_mode_crashes (f : FrameRepr) (hv : f.validate = .ok ())
    (ha : f.addressingFields.isSome)
    (hm : f.frameControl.dstMode = .unknown ∨ f.frameControl.srcMode = .unknown) :
    Fuzz.reprTarget f = .panic := by
  obtain ⟨a, ha⟩ := Option.isSome_iff_exists.mp ha
  have : f.bufferLen = .panic := by
    rw [FrameRepr.bufferLen, ha]
    simp only [mapOpt]
    have : AddressingFieldsRepr.bufferLen a f.frameControl = .panic := by
      rcases hm with h | h <;> simp only [AddressingFieldsRepr.bufferLen, h]
      · rfl
      · cases f.frameControl.dstMode <;> rfl
    rw [this]
    rfl
  rw [Fuzz.reprTarget, hv]
  simp only [this]
  rfl

/-- Non-vacuity for `C83_unknown_mode_crashes`: a beacon with an unknown destination mode. -/
example : ∃ f : FrameRepr, f.validate = .ok () ∧ f.addressingFields.isSome ∧
    f.frameControl.dstMode = .unknown :=
  ⟨⟨⟨.beacon, false, false, false, false, true, false, .unknown, .absent, .v2020⟩, none,
    some ⟨none, none, none, none⟩, none, none⟩, by decide +kernel, rfl, rfl⟩

/-- **C83**: the generators do produce crashing frames, of each of the three kinds: contradictory
lengths, a listed payload termination, and an unknown addressing mode. -/
theorem C83_crashes :
    (∃ f, Fuzz.frame (.done f) ∧ Writable f.frameControl ∧ f.informationElements = none ∧
      Fuzz.reprTarget f = .panic) ∧
    (∃ f r, Fuzz.frame (.done f) ∧ Writable f.frameControl ∧ f.informationElements = some r ∧
      .payloadTermination ∈ r.payload ∧ Fuzz.reprTarget f = .panic) ∧
    ∃ f, Fuzz.frame (.done f) ∧ f.frameControl.dstMode = .unknown ∧ Fuzz.reprTarget f = .panic := by
  refine ⟨⟨⟨⟨.beacon, false, false, false, false, false, false, .short, .absent, .v2006⟩, some 1, none,
      none, some [1, 2, 3, 4, 5]⟩, ?_, by decide, rfl, by decide +kernel⟩,
    ⟨⟨⟨.beacon, false, false, false, false, true, true, .absent, .absent, .v2020⟩, none, none,
      some ⟨[], [.payloadTermination]⟩, none⟩, _, ?_, by decide, rfl, by simp, by decide +kernel⟩,
    ⟨⟨⟨.beacon, false, false, false, false, true, false, .unknown, .absent, .v2020⟩, none,
      some ⟨none, none, none, none⟩, none, none⟩, ?_, rfl, by decide +kernel⟩⟩
  all_goals rw [C83_frames]; intro r h; cases h
  exact ⟨by simp, by simp, by simp [PayloadMade]⟩

end Dot15d4.Props
