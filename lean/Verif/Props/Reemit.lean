import Verif.Props.Emit
import Mathlib.Tactic.IntervalCases

/-! # C60, C61: emitting frames that do not come from the builder -/

namespace Dot15d4.Props
open Out Spec InformationElements

/-! ## C60: what `validate` guarantees -/

/-- The full claim of C60 (the fuzz target `repr` of the repository): a frame accepted by
`validate` is emitted into a buffer of `buffer_len()` octets without a panic. -/
def C60_statement : Prop := ∀ f : FrameRepr, f.validate = .ok () →
  ∃ n d, f.bufferLen = .ok n ∧ f.emit (List.replicate n 0) = .ok d

/-- **C60**.  Every `FrameRepr`, however it was made, whose frame control field describes it
(`Coherent`), and whose information elements have encodings and are not followed by a payload, is
emitted into a buffer of `buffer_len()` octets, fills it, is accepted by `DataFrame::new` if it is
no longer than a frame may be, and is read back.  Missing: frames whose frame control field does
not describe them: `validate` does not look (`C60_false` and the cases after it). -/
theorem C60_emit_partial (f : FrameRepr) (hc : Coherent f (tailOctets f).length) (ht : TailOk f)
    (hw : Writable f.frameControl) (hv : f.frameControl.frameVersion ≠ .unknown) :
    ∃ n d, f.bufferLen = .ok n ∧ f.emit (List.replicate n 0) = .ok d ∧ d.length = n ∧
      (n ≤ 127 → DataFrame.new d = .ok d) ∧ FrameRepr.parse d = .ok (rereadFrame f) := by
  have hl := frame_bufferLen hc ht
  obtain ⟨o0, o1, ho, -, hd⟩ := emit_frame hc ht hw _ hl
  have hlen : (o0 :: o1 :: (f.sequenceNumber.toList ++ (addrOctets f ++ tailOctets f))).length =
      2 + f.sequenceNumber.toList.length + (addrOctets f).length + (tailOctets f).length := by
    simp; omega
  refine ⟨_, _, hl, hd, hlen, fun hn => ?_, parse_frame hc ht ho⟩
  have := emitted_acceptable hc hw hv ho (addrOctets f ++ tailOctets f) (by rw [hlen]; exact hn)
  rcases C09_new (o0 :: o1 :: (f.sequenceNumber.toList ++ (addrOctets f ++ tailOctets f))) with
    ⟨-, h⟩ | ⟨h', -⟩
  · exact h
  · exact absurd this h'

/-- A data frame with the pending and acknowledgment request bits, which no builder history
gives. -/
def exampleFrame : FrameRepr where
  frameControl := ⟨.data, false, true, true, true, false, false, .short, .short, .v2006⟩
  sequenceNumber := some 7
  addressingFields := some ⟨some 0xabcd, some (.short ⟨[1, 2], rfl⟩), none,
    some (.short ⟨[3, 4], rfl⟩)⟩
  informationElements := none
  payload := some [9, 8, 7]

example : Coherent exampleFrame (tailOctets exampleFrame).length ∧ TailOk exampleFrame ∧
    Writable exampleFrame.frameControl ∧
    exampleFrame.validate = .ok () ∧
    exampleFrame.emit (List.replicate 12 0) =
      .ok [0x71, 0x98, 7, 0xcd, 0xab, 2, 1, 4, 3, 9, 8, 7] := by
  refine ⟨⟨rfl, rfl, by decide, ?_, (by intro h; cases h), rfl⟩, (by intro ie h; cases h), by decide,
    by decide, by decide +kernel⟩
  rintro a h; cases h; decide

/-- C60 in full is false: `validate` accepts a frame without sequence number whose suppression bit
is not set, and `emit` panics. -/
theorem C60_false : ¬ C60_statement := by
  intro h
  let f : FrameRepr := ⟨⟨.data, false, false, false, true, false, false, .short, .short, .v2006⟩,
    none, exampleFrame.addressingFields, none, some [1]⟩
  obtain ⟨n, d, h1, h2⟩ := h f (by decide)
  have e : f.bufferLen = .ok 9 := by decide
  rw [e] at h1
  cases h1
  have e : f.emit (List.replicate 9 0) = .panic := by decide +kernel
  rw [e] at h2
  cases h2

/-- A frame differing from `exampleFrame` is accepted by `validate` but cannot be emitted. -/
def Gap (f : FrameRepr) : Prop :=
  f.validate = .ok () ∧
    (f.bufferLen = .panic ∨ ∃ n, f.bufferLen = .ok n ∧ f.emit (List.replicate n 0) = .panic)

/-- The other things `validate` does not check: a sequence number without a suppression bit to
match, addressing modes that are not those of the addresses, PAN ids the compression bit does not
allow, the element bit without elements, the security bit, elements before a payload, and a
reserved addressing mode (for which already `buffer_len` panics). -/
theorem C60_gaps :
    Gap { exampleFrame with frameControl :=
      { exampleFrame.frameControl with seqNoSuppression := true } } ∧
    Gap { exampleFrame with frameControl := { exampleFrame.frameControl with srcMode := .absent } } ∧
    Gap { exampleFrame with frameControl :=
      { exampleFrame.frameControl with panIdCompression := false } } ∧
    Gap { exampleFrame with frameControl := { exampleFrame.frameControl with iePresent := true } } ∧
    Gap { exampleFrame with
      frameControl := { exampleFrame.frameControl with securityEnabled := true } } ∧
    Gap { exampleFrame with
      frameControl := { exampleFrame.frameControl with iePresent := true, frameVersion := .v2020 }
      informationElements := some ⟨[.timeCorrection ⟨⟨3⟩, true⟩], []⟩ } ∧
    Gap { exampleFrame with frameControl := { exampleFrame.frameControl with dstMode := .unknown } } := by
  refine ⟨⟨rfl, .inr ⟨12, rfl, by decide +kernel⟩⟩, ⟨rfl, .inr ⟨10, rfl, by decide +kernel⟩⟩,
    ⟨rfl, .inr ⟨12, rfl, by decide +kernel⟩⟩, ⟨rfl, .inr ⟨12, rfl, by decide +kernel⟩⟩,
    ⟨rfl, .inr ⟨12, rfl, by decide +kernel⟩⟩, ⟨rfl, .inr ⟨18, rfl, by decide +kernel⟩⟩,
    ⟨rfl, .inl rfl⟩⟩

/-! ## C62: what `validate` accepts -/

/-- What a frame has to have: a data frame has a PAN id or an address, and a payload; no frame has
an empty payload. -/
def Validated (f : FrameRepr) : Prop :=
  (f.frameControl.frameType = .data →
    (∃ a, f.addressingFields = some a ∧ (a.dstPanId.isSome ∨ a.dstAddress.isSome ∨
      a.srcPanId.isSome ∨ a.srcAddress.isSome)) ∧ ∃ p, f.payload = some p) ∧
  ∀ p, f.payload = some p → p ≠ []

/-- **C62**.  `validate` accepts exactly these frames, and rejects all others. -/
theorem C62_validate (f : FrameRepr) :
    (Validated f ∧ f.validate = .ok ()) ∨ (¬ Validated f ∧ f.validate = .err) := by
  obtain ⟨fc, sq, af, ie, pl⟩ := f
  by_cases ht : fc.frameType = .data
  · cases af with
    | none => right; simp [Validated, FrameRepr.validate, ht]
    | some a =>
      cases pl with
      | none => right; simp [Validated, FrameRepr.validate, ht]
      | some p =>
        obtain ⟨a1, a2, a3, a4⟩ := a
        by_cases hp : p = []
        · right
          refine ⟨fun h => h.2 p rfl hp, ?_⟩
          simp only [FrameRepr.validate, ht, Option.isNone_some, mapOpt,
            AddressingFieldsRepr.validate, hp]
          by_cases h : a1 = none ∧ a2 = none ∧ a3 = none ∧ a4 = none <;> simp [h]
        · cases a1 <;> cases a2 <;> cases a3 <;> cases a4 <;>
            simp_all [Validated, FrameRepr.validate, mapOpt, AddressingFieldsRepr.validate]
  · by_cases hp : pl = some []
    · right
      subst hp
      refine ⟨fun h => h.2 [] rfl rfl, ?_⟩
      cases af <;> simp [FrameRepr.validate, ht, mapOpt, AddressingFieldsRepr.validate]
    · left
      refine ⟨⟨fun h => absurd h ht, fun p h1 h2 => hp (by rw [← h2]; exact h1)⟩, ?_⟩
      cases af <;> simp [FrameRepr.validate, ht, hp, mapOpt, AddressingFieldsRepr.validate]

/-- Frames it rejects, and one it accepts. -/
example : ¬ Validated { exampleFrame with payload := none } ∧
    ¬ Validated { exampleFrame with payload := some [] } ∧
    ¬ Validated { exampleFrame with addressingFields := none } ∧ Validated exampleFrame := by
  refine ⟨?_, ?_, ?_, ?_⟩ <;> simp [Validated, exampleFrame]

/-! ## C61: parsing and emitting again -/

/-- Clear the reserved bit of the frame control field, bit 7. -/
def clearReserved : Bytes → Bytes
  | o :: l => (o &&& 0x7f) :: l
  | [] => []

/-- The full claim of C61: a received frame that was parsed and is emitted again (to forward it,
say) has the octets it came with, except the reserved bit. -/
def C61_statement : Prop := ∀ (b : Bytes) (f : FrameRepr), DataFrame.new b = .ok b →
  FrameRepr.parse b = .ok f →
  f.bufferLen = .ok b.length ∧ f.emit (List.replicate b.length 0) = .ok (clearReserved b)

theorem frameTypeCode_inj {a b : Nat} (ha : a < 8) (hb : b < 8) (h : frameTypeCode a ≠ .unknown)
    (e : frameTypeCode a = frameTypeCode b) : a = b := by
  interval_cases a <;> interval_cases b <;> simp_all [frameTypeCode]

theorem versionCode_inj {a b : Nat} (ha : a < 4) (hb : b < 4) (h : versionCode a ≠ .unknown)
    (e : versionCode a = versionCode b) : a = b := by
  interval_cases a <;> interval_cases b <;> simp_all [versionCode]

theorem modeCode_inj {a b : Nat} (ha : a < 4) (hb : b < 4) (h : modeCode a ≠ .unknown)
    (e : modeCode a = modeCode b) : a = b := by
  interval_cases a <;> interval_cases b <;> simp_all [modeCode]

theorem fcField_step {a b c d : Byte} {lo n k : Nat} (hk : lo = k)
    (h1 : fcField a b 0 lo = fcField c d 0 lo) (h2 : fcField a b k n = fcField c d k n) :
    fcField a b 0 (lo + n) = fcField c d 0 (lo + n) := by
  subst hk
  simp only [fcField, Nat.pow_zero, Nat.div_one, Nat.pow_add, Nat.mod_mul] at *
  rw [h1, h2]

theorem fcField_one {a b : Byte} {i : Nat} (hi : i < 16) :
    fcField a b i 1 = if fcBit a b i then 1 else 0 := by
  have ha := a.isLt
  simp only [fcField, fcBit]
  have : ∀ x : Nat, x % 2 ^ 1 = if decide (x % 2 = 1) then 1 else 0 := by
    intro x
    rcases Nat.mod_two_eq_zero_or_one x with h | h <;> simp [h]
  rw [this]
  congr 2
  split
  · rename_i h
    have : (a.toNat + 256 * b.toNat) / 2 ^ i % 2 = a.toNat / 2 ^ i % 2 := by
      interval_cases i <;> omega
    rw [this]
  · rename_i h
    have : (a.toNat + 256 * b.toNat) / 2 ^ i % 2 = b.toNat / 2 ^ (i - 8) % 2 := by
      interval_cases i <;> omega
    rw [this]

/-- A frame control field without reserved codes is determined by its decoding and the reserved
bit. -/
theorem decodeFc_inj {a b c d : Byte} (h : decodeFc a b = decodeFc c d)
    (ht : (decodeFc a b).frameType ≠ .unknown) (hv : (decodeFc a b).frameVersion ≠ .unknown)
    (hd : (decodeFc a b).dstMode ≠ .unknown) (hs : (decodeFc a b).srcMode ≠ .unknown)
    (h7 : fcBit a b 7 = fcBit c d 7) : a = c ∧ b = d := by
  simp only [decodeFc] at ht hv hd hs
  simp only [decodeFc, FrameControlRepr.mk.injEq] at h
  obtain ⟨e0, e3, e4, e5, e6, e8, e9, e10, e14, e12⟩ := h
  have lt : ∀ x y lo n, fcField x y lo n < 2 ^ n := fun _ _ _ _ => Nat.mod_lt _ (by positivity)
  replace e0 := frameTypeCode_inj (lt _ _ 0 3) (lt _ _ 0 3) ht e0
  replace e12 := versionCode_inj (lt _ _ 12 2) (lt _ _ 12 2) hv e12
  replace e10 := modeCode_inj (lt _ _ 10 2) (lt _ _ 10 2) hd e10
  replace e14 := modeCode_inj (lt _ _ 14 2) (lt _ _ 14 2) hs e14
  have key : ∀ i < 16, fcBit a b i = fcBit c d i →
      fcField a b i 1 = fcField c d i 1 := by
    intro i hi h
    rw [fcField_one hi, fcField_one hi, h]
  have k3 := fcField_step rfl e0 (key 3 (by decide) e3)
  have k4 := fcField_step rfl k3 (key 4 (by decide) e4)
  have k5 := fcField_step rfl k4 (key 5 (by decide) e5)
  have k6 := fcField_step rfl k5 (key 6 (by decide) e6)
  have k7 := fcField_step rfl k6 (key 7 (by decide) h7)
  have k8 := fcField_step rfl k7 (key 8 (by decide) e8)
  have k9 := fcField_step rfl k8 (key 9 (by decide) e9)
  have k10 := fcField_step rfl k9 e10
  have k12 := fcField_step rfl k10 e12
  have k14 := fcField_step rfl k12 e14
  have ha := a.isLt
  have hb := b.isLt
  have hc := c.isLt
  have hd' := d.isLt
  simp only [fcField, Nat.pow_zero, Nat.div_one, Nat.reduceAdd, Nat.reducePow] at k14
  clear * - k14 ha hb hc hd'
  constructor
  · apply BitVec.eq_of_toNat_eq; omega
  · apply BitVec.eq_of_toNat_eq; omega

theorem decodeFc_clear (a b : Byte) :
    decodeFc (a &&& 0x7f) b = decodeFc a b ∧ fcBit (a &&& 0x7f) b 7 = false := by
  have e : (a &&& 0x7f).toNat = a.toNat % 128 := by
    rw [BitVec.toNat_and]
    exact Nat.and_two_pow_sub_one_eq_mod a.toNat 7
  constructor
  · simp only [decodeFc, fcBit, fcField, e, FrameControlRepr.mk.injEq, decide_eq_decide, Nat.reduceLT,
      if_true, if_false, true_and]
    have := a.isLt
    have := b.isLt
    refine ⟨by congr 1; omega, by omega, by omega, by omega, by omega, by congr 1; omega,
      by congr 1; omega, by congr 1; omega⟩
  · simp only [fcBit, e, Nat.reduceLT, if_true, decide_eq_false_iff_not]
    omega

/-- **C61**.  Parsing a received frame that announces no information elements and emitting it
again gives the octets it came with, except the reserved bit, for every frame the reader accepts
(whatever its type, and even if it is too short for its addressing fields).  Missing: frames with
information elements (`C61_false`, `C61_elements_corrupted`). -/
theorem C61_reemit_partial (b : Bytes) (f : FrameRepr) (h : DataFrame.new b = .ok b)
    (hp : FrameRepr.parse b = .ok f) (hie : f.frameControl.iePresent = false) :
    f.bufferLen = .ok b.length ∧ f.emit (List.replicate b.length 0) = .ok (clearReserved b) := by
  have hacc : Acceptable b := by
    rcases C09_new b with ⟨h', -⟩ | ⟨-, h'⟩
    · exact h'
    · rw [h] at h'; cases h'
  obtain ⟨o0, o1, seq, A, I, R, af, ie, hb, g1, g2, g3, g4, g5, g6, -, g7, g8, g9, -, g10⟩ :=
    splits_data b hacc
  obtain ⟨-, -, p0, p1, l, e, -, hsec, htype, hver, hd, hs⟩ := hacc
  have e0 : o0 :: o1 :: (seq.toList ++ (A ++ (I ++ R))) = p0 :: p1 :: l := by
    rw [← e, hb]; simp
  simp only [List.cons.injEq] at e0
  obtain ⟨rfl, rfl, rfl⟩ := e0
  simp only [dataApi] at g1 g2 g4 g7 g10
  rw [FrameRepr.parse, g1, bind_ok, FrameControlRepr.parse_cons, wRepr_eq_spec, bind_ok, g4,
    bind_ok] at hp
  obtain ⟨ar, ha, hp⟩ := bind_eq_ok.mp hp
  rw [g7, bind_ok] at hp
  obtain ⟨ier, hier, hp⟩ := bind_eq_ok.mp hp
  rw [g2, bind_ok, g10, bind_ok] at hp
  simp only [ok.injEq] at hp
  have hfc : f.frameControl = decodeFc o0 o1 := by rw [← hp]
  rw [hfc] at hie
  have := g9 hie
  subst this
  have hI : I = [] := g8
  subst hI
  cases hier
  -- what the parts of `f` are
  have haO : addrOctets f = A := by
    rw [← hp]
    cases af with
    | none =>
      cases ha
      rw [show A = [] from g5]; rfl
    | some af =>
      obtain ⟨dp, d, sp, s, rfl, q1, q2, q3, q4, q5⟩ := g5
      simp only [mapOpt, AddressingFieldsRepr.parse, q1, q2, q3, q4, bind_ok, ok.injEq] at ha
      rw [← ha]; rfl
  have htl : tailOctets f = R := by
    rw [← hp]
    by_cases hR : R = [] <;> simp [tailOctets, hR]
  have hseq : f.sequenceNumber = seq := by rw [← hp]
  have hc : Coherent f (tailOctets f).length := by
    refine ⟨?_, ?_, ?_, ?_, ?_, ?_⟩
    · rw [hfc, hseq]
      cases seq <;> simpa using g3.symm
    · rw [hfc, hie, ← hp]; rfl
    · rw [hfc]; exact ⟨hd, hs⟩
    · intro a haa
      rw [← hp] at haa
      simp only at haa
      subst haa
      cases af with
      | none => cases ha
      | some af =>
        have hnew : AddressingFields.new (A ++ R) [o0, o1] = .ok af := by
          have := df_addressing o0 o1 (seq.toList ++ (A ++ ([] ++ R))) (by
            intro hq
            rw [hq] at g3
            cases seq <;> simp at g3 ⊢)
          have hq : afterSeq o0 o1 (seq.toList ++ (A ++ ([] ++ R))) = A ++ R := by
            rw [afterSeq]
            revert g3
            cases (decodeFc o0 o1).seqNoSuppression <;> cases seq <;> simp
          rw [hq, ← e, g4] at this
          have key : ∀ x : Out AddressingFields, x.toOption = .ok (some af) → x = .ok af := by
            intro x hx
            cases x <;> simp [Out.toOption] at hx
            rw [hx]
          exact key _ this.symm
        obtain ⟨p, dp, d, sp, s, rest, q0, q1, q2, q3, q4, -, r1, r2, r3, r4, -⟩ :=
          C05_layout _ o0 o1 [] hd hs _ hnew
        simp only [mapOpt, AddressingFieldsRepr.parse, r1, r2, r3, r4, bind_ok, ok.injEq,
          Option.some.injEq] at ha
        rw [hfc, ← ha]
        refine ⟨q3.symm, q4.symm, ?_⟩
        rw [fcPans] at q0
        simp only [q0, q1, q2]
    · intro haa p hpn
      rw [← hp] at haa
      simp only at haa
      subst haa
      rw [hfc] at hpn ⊢
      rw [htl]
      cases af with
      | some af =>
        exfalso
        obtain ⟨dp, d, sp, s, rfl, q1, q2, q3, q4, q5⟩ := g5
        simp [mapOpt, AddressingFieldsRepr.parse, q1, q2, q3, q4] at ha
      | none =>
        have hA : A = [] := g5
        have : fcPans o0 o1 = some p := hpn
        rw [this, hA] at g6
        simp only [Option.isSome_none, List.nil_append] at g6
        have := of_decide_eq_false g6.symm
        simp only [fcAddrLen] at this
        simp only [fieldLen]
        omega
    · rw [hfc]; exact hsec
  have ht : TailOk f := by
    intro ie he
    rw [← hp] at he
    cases he
  have hl := frame_bufferLen hc ht
  have hlen : 2 + f.sequenceNumber.toList.length + (addrOctets f).length + (tailOctets f).length =
      b.length := by
    rw [haO, htl, hseq, hb]; simp; omega
  rw [hlen] at hl
  refine ⟨hl, ?_⟩
  obtain ⟨q0, q1, ho, h7, hem⟩ := emit_frame hc ht (by rw [hfc]; exact ⟨htype, hd, hs⟩) _ hl
  rw [hem, haO, htl, hseq, hb]
  obtain ⟨c1, c2⟩ := decodeFc_clear o0 o1
  obtain ⟨rfl, rfl⟩ := decodeFc_inj (a := q0) (b := q1) (c := o0 &&& 0x7f) (d := o1)
    (by rw [ho, c1, hfc]) (by rw [ho, hfc]; exact htype) (by rw [ho, hfc]; exact hver)
    (by rw [ho, hfc]; exact hd) (by rw [ho, hfc]; exact hs) (by rw [h7, c2])
  simp [clearReserved]

/-- Frames meeting the hypotheses: one with addresses and the reserved bit set, and one that is too
short for its addressing fields. -/
example : ∃ f, DataFrame.new [0xf1, 0x98, 7, 0xcd, 0xab, 2, 1, 4, 3, 9, 8, 7] =
      .ok [0xf1, 0x98, 7, 0xcd, 0xab, 2, 1, 4, 3, 9, 8, 7] ∧
    FrameRepr.parse [0xf1, 0x98, 7, 0xcd, 0xab, 2, 1, 4, 3, 9, 8, 7] = .ok f ∧
    f.frameControl.iePresent = false ∧
    f.emit (List.replicate 12 0) = .ok [0x71, 0x98, 7, 0xcd, 0xab, 2, 1, 4, 3, 9, 8, 7] :=
  ⟨exampleFrame, by decide +kernel, by decide +kernel, rfl, by decide +kernel⟩

example : ∃ f, FrameRepr.parse [0x71, 0x98, 7, 0xcd] = .ok f ∧ f.addressingFields = none ∧
    f.emit (List.replicate 4 0) = .ok [0x71, 0x98, 7, 0xcd] :=
  ⟨⟨exampleFrame.frameControl, some 7, none, none, some [0xcd]⟩, by decide +kernel, rfl,
    by decide +kernel⟩

/-- The frames the library itself writes, with header elements or without elements: parsing the
octets and emitting again gives the same octets.  (With payload elements it does not:
`C61_elements_corrupted`.) -/
theorem C61_written_partial (f : FrameRepr) (hc : Coherent f (tailOctets f).length) (ht : TailOk f)
    (hw : Writable f.frameControl) (hv : f.frameControl.frameVersion ≠ .unknown)
    (hp : ∀ ie, f.informationElements = some ie → ie.payload = []) :
    ∃ n d f', f.bufferLen = .ok n ∧ f.emit (List.replicate n 0) = .ok d ∧
      FrameRepr.parse d = .ok f' ∧ f'.bufferLen = .ok n ∧ f'.emit (List.replicate n 0) = .ok d := by
  have hl := frame_bufferLen hc ht
  obtain ⟨o0, o1, ho, h7, hd⟩ := emit_frame hc ht hw _ hl
  have hi : (rereadFrame f).informationElements = f.informationElements := by
    show f.informationElements.map _ = _
    cases hi : f.informationElements with
    | none => rfl
    | some ie => simp [hp ie hi]
  have hta : tailOctets (rereadFrame f) = tailOctets f := by
    rw [tailOctets, tailOctets, hi]
    congr 1
    show Option.getD (if f.payload = some [] then none else f.payload) [] = _
    split
    · rename_i h; rw [h]; rfl
    · rfl
  have had : addrOctets (rereadFrame f) = addrOctets f := by
    simp only [addrOctets, rereadFrame, rereadAddr]
    cases f.addressingFields <;> simp
  have hc' : Coherent (rereadFrame f) (tailOctets (rereadFrame f)).length := by
    rw [hta]
    refine ⟨hc.seq, by rw [hi]; exact hc.ie, hc.modes, ?_, ?_, hc.clear⟩
    · intro a ha
      simp only [rereadFrame, rereadAddr] at ha
      cases hf : f.addressingFields with
      | none => rw [hf] at ha; cases ha
      | some a0 =>
        rw [hf] at ha
        simp only [Option.map_some, Option.some.injEq] at ha
        subst ha
        obtain ⟨h1, h2, h3⟩ := hc.addr a0 hf
        refine ⟨h1.trans ?_, h2.trans ?_, h3⟩
        · cases a0.dstAddress <;> rfl
        · cases a0.srcAddress <;> rfl
    · intro ha
      refine hc.none ?_
      simp only [rereadFrame, rereadAddr] at ha
      simpa using ha
  have ht' : TailOk (rereadFrame f) := by
    intro ie hie
    rw [hi] at hie
    refine ⟨(ht ie hie).1, ?_⟩
    show (if f.payload = some [] then none else f.payload) = none
    rw [(ht ie hie).2]; rfl
  have hl' := frame_bufferLen hc' ht'
  obtain ⟨o0', o1', ho', h7', hd'⟩ := emit_frame hc' ht' (show Writable (rereadFrame f).frameControl from hw) _ hl'
  have hfc : (rereadFrame f).frameControl = f.frameControl := rfl
  have heq : o0' = o0 ∧ o1' = o1 := by
    refine decodeFc_inj (by rw [ho, ho', hfc]) ?_ ?_ ?_ ?_ (by rw [h7, h7'])
    · rw [ho', hfc]; exact hw.1
    · rw [ho', hfc]; exact hv
    · rw [ho', hfc]; exact hc.modes.1
    · rw [ho', hfc]; exact hc.modes.2
  obtain ⟨rfl, rfl⟩ := heq
  refine ⟨_, _, rereadFrame f, hl, hd, parse_frame hc ht ho, ?_, ?_⟩
  · rw [hl', had, hta]; rfl
  · rw [had, hta] at hd'
    exact hd'

/-- Non-vacuity: a frame with a header element, which meets the conditions of C61_written_partial (and
those of C60_injective). -/
def elementFrame : FrameRepr where
  frameControl := ⟨.data, false, true, true, true, false, true, .short, .short, .v2020⟩
  sequenceNumber := some 7
  addressingFields := some ⟨some 0xabcd, some (.short ⟨[1, 2], rfl⟩), none,
    some (.short ⟨[3, 4], rfl⟩)⟩
  informationElements := some ⟨[.timeCorrection ⟨⟨5⟩, false⟩], []⟩
  payload := none

example : Coherent elementFrame (tailOctets elementFrame).length ∧ TailOk elementFrame ∧
    Writable elementFrame.frameControl ∧
    (∀ ie, elementFrame.informationElements = some ie → ie.payload = []) ∧
    elementFrame.emit (List.replicate 13 0) =
      .ok [0x71, 0xaa, 7, 0xcd, 0xab, 2, 1, 4, 3, 0x02, 0x0f, 5, 0] := by
  refine ⟨⟨rfl, rfl, by decide, ?_, (by intro h; cases h), rfl⟩, ?_, by decide, ?_,
    by decide +kernel⟩
  · rintro a h; cases h; decide
  · rintro ie h; cases h; exact ⟨by decide, rfl⟩
  · rintro ie h; cases h; rfl

/-- **C60**: different frames have different octets - two frames that are emitted as the same octets
are read back as the same frame, so they differ at most in how they say that an address or a payload
is absent. -/
theorem C60_injective (f g : FrameRepr) (hf : Coherent f (tailOctets f).length) (tf : TailOk f)
    (wf : Writable f.frameControl) (hg : Coherent g (tailOctets g).length) (tg : TailOk g)
    (wg : Writable g.frameControl) (hv : f.frameControl.frameVersion ≠ .unknown)
    (hv' : g.frameControl.frameVersion ≠ .unknown) (n m : Nat) (d : Bytes)
    (ln : f.bufferLen = .ok n) (lm : g.bufferLen = .ok m)
    (ef : f.emit (List.replicate n 0) = .ok d) (eg : g.emit (List.replicate m 0) = .ok d) :
    rereadFrame f = rereadFrame g := by
  obtain ⟨n', d1, h1, h2, -, -, h3⟩ := C60_emit_partial f hf tf wf hv
  obtain ⟨m', d2, k1, k2, -, -, k3⟩ := C60_emit_partial g hg tg wg hv'
  rw [ln] at h1; cases h1
  rw [lm] at k1; cases k1
  rw [ef] at h2; cases h2
  rw [eg] at k2; cases k2
  rw [h3] at k3
  simpa using k3

/-- C61 in full is false: a frame with the element bit whose elements cannot be read is parsed
(without elements), and emitting the result panics. -/
theorem C61_false : ¬ C61_statement := by
  intro h
  let f : FrameRepr := ⟨⟨.data, false, false, false, false, true, true, .absent, .absent, .v2020⟩,
    none, some ⟨none, some .absent, none, some .absent⟩, none, some [0x80, 0x3f]⟩
  obtain ⟨-, h2⟩ := h [0x01, 0x23, 0x80, 0x3f] f (by decide +kernel) (by decide +kernel)
  have e : f.emit (List.replicate 4 0) = .panic := by decide +kernel
  simp only [List.length_cons, List.length_nil] at h2
  rw [e] at h2
  cases h2

/-- Information elements do not survive being emitted, parsed and emitted again: whatever list of
header and payload elements is emitted, parsing the octets gives a list with the header
termination in it, to which `emit` adds another one; the result, in a frame, cannot be read any
more. -/
theorem C61_elements_corrupted (r : InformationElementsRepr) (ho : ElementsOk r)
    (hp : r.payload ≠ []) (h16 : r.header.length < 16) :
    ∃ d r' d', r.emit (List.replicate (r.bufferLen false) 0) false = .ok d ∧
      InformationElementsRepr.parse d = .ok r' ∧
      r'.emit (List.replicate (r'.bufferLen false) 0) false = .ok d' ∧
      d'.length = d.length + 2 ∧
      (d'.length ≤ 127 → InformationElements.new d' = .err) := by
  obtain ⟨d, h1, h2, h3, h4⟩ := C30_roundtrip_partial r ho (List.replicate (r.bufferLen false) 0)
    (by simp)
  rw [if_neg hp] at h4
  rw [List.take_of_length_le (by simp; omega)] at h4
  have hd : d = encodeElements r false := by
    obtain ⟨e1, e2⟩ := emit_elements r false ho (.inl rfl) (List.replicate (r.bufferLen false) 0)
      (by simp)
    rw [h1] at e1
    simpa using e1
  set r' : InformationElementsRepr := ⟨r.header ++ [HeaderIeRepr.headerTermination1], r.payload⟩
    with hr'
  obtain ⟨e1, e2⟩ := emit_elements' r' false ho.2.2.2 (.inl rfl)
    (List.replicate (r'.bufferLen false) 0) (by simp)
  have e3 : encodeElements r' false = (r.header.map encodeHeader).flatten ++
      (encodeHeader .headerTermination1 ++ (encodeHeader .headerTermination1 ++
        (r.payload.map encodePayload).flatten)) := by
    simp [encodeElements, hr', hp]
  have e4 : encodeElements r false = (r.header.map encodeHeader).flatten ++
      (encodeHeader .headerTermination1 ++ (r.payload.map encodePayload).flatten) := by
    simp [encodeElements, hp]
  have ht1 : (encodeHeader .headerTermination1).length = 2 := rfl
  refine ⟨d, r', encodeElements r' false, h1, h4, by simpa using e1, ?_, ?_⟩
  · rw [hd, e3, e4]; simp [ht1]; omega
  · intro hlen
    have H : ∀ c ∈ r.header.map encodeHeader, Complete headerLen c ∧ headerStop (desc c) = false := by
      intro c hc
      obtain ⟨x, hx, rfl⟩ := List.mem_map.mp hc
      exact ⟨header_complete (HeaderOk.ne (ho.2.2.1 x hx)), header_not_stop (ho.2.2.1 x hx)⟩
    set X := encodeHeader .headerTermination1 ++ (r.payload.map encodePayload).flatten with hX
    have hS' : InformationElements.hS (encodeElements r' false) =
        ((r.header.map encodeHeader).flatten ++ encodeHeader .headerTermination1).length := by
      rw [InformationElements.hS, InformationElements.hT, e3, ieTails_flatten _ H, ieSize_append,
        ieSize_tailsOf _ fun c hc => (H c hc).1,
        ieTails_stop (header_complete (by simp)) (by decide)]
      have hq : headerLen (desc (encodeHeader .headerTermination1 ++ X)) = 0 := by
        rw [desc_append (by simp [ht1])]; decide
      simp [ieSize, hq, ht1]
    have hdrop : (encodeElements r' false).drop (InformationElements.hS (encodeElements r' false)) =
        X := by
      rw [hS', e3, ← List.append_assoc, List.drop_left]
    rw [InformationElements.new_eq, if_neg]
    have : InformationElements.pS (encodeElements r' false) ≥ 770 := by
      rw [InformationElements.pS, InformationElements.pT, hdrop, ieTails]
      have h2 : 2 ≤ X.length := by simp [hX, ht1]
      have hq : payloadLen (desc X) = 768 := by
        rw [hX, desc_append (by simp [ht1])]; decide
      rw [if_pos h2, ieSize, hq]
      omega
    omega

/-- The whole way through a frame: an enhanced beacon with a timeslot element, parsed and emitted
again, has lost its elements. -/
example : (do
    let f ← FrameRepr.parse [0x00, 0x2a, 0x07, 0xcd, 0xab, 0x02, 0x01, 0x00, 0x3f, 0x03, 0x88, 0x01,
      0x1c, 0x00]
    let n ← f.bufferLen
    let d ← f.emit (List.replicate n 0)
    let g ← FrameRepr.parse d
    .ok (f.informationElements.isSome, n, g.informationElements.isSome)) =
    .ok (true, 16, false) := by decide +kernel

end Dot15d4.Props
