import Verif.Props.Reemit
import Verif.Props.Parse
import Verif.Props.EndToEnd

/-! # C97: nothing of a frame is lost by parsing it; frames that were cut short -/

namespace Dot15d4.Props
open Out Spec InformationElements

/-- The full claim of C97: octets that differ (in more than the reserved bit of the frame control
field) are read as different frames. -/
def C97_statement : Prop := ∀ (b b' : Bytes) (f : FrameRepr), DataFrame.new b = .ok b →
  DataFrame.new b' = .ok b' → FrameRepr.parse b = .ok f → FrameRepr.parse b' = .ok f →
  clearReserved b = clearReserved b'

/-- **C97**.  Missing: frames that announce information elements (`C97_false`). -/
theorem C97_injective_partial (b b' : Bytes) (f : FrameRepr) (h : DataFrame.new b = .ok b)
    (h' : DataFrame.new b' = .ok b') (hp : FrameRepr.parse b = .ok f)
    (hp' : FrameRepr.parse b' = .ok f) (hie : f.frameControl.iePresent = false) :
    clearReserved b = clearReserved b' := by
  obtain ⟨l1, e1⟩ := C61_reemit_partial b f h hp hie
  obtain ⟨l2, e2⟩ := C61_reemit_partial b' f h' hp' hie
  rw [l1] at l2
  simp only [ok.injEq] at l2
  rw [← l2, e1] at e2
  simpa using e2

/-- Two different strings, one frame: they differ in the reserved bit. -/
example : [0xf1, 0x98, 7, 0xcd, 0xab, 2, 1, 4, 3, 9, 8, 7] ≠
      ([0x71, 0x98, 7, 0xcd, 0xab, 2, 1, 4, 3, 9, 8, 7] : Bytes) ∧
    DataFrame.new [0xf1, 0x98, 7, 0xcd, 0xab, 2, 1, 4, 3, 9, 8, 7] =
      .ok [0xf1, 0x98, 7, 0xcd, 0xab, 2, 1, 4, 3, 9, 8, 7] ∧
    DataFrame.new [0x71, 0x98, 7, 0xcd, 0xab, 2, 1, 4, 3, 9, 8, 7] =
      .ok [0x71, 0x98, 7, 0xcd, 0xab, 2, 1, 4, 3, 9, 8, 7] ∧
    FrameRepr.parse [0xf1, 0x98, 7, 0xcd, 0xab, 2, 1, 4, 3, 9, 8, 7] = .ok exampleFrame ∧
    FrameRepr.parse [0x71, 0x98, 7, 0xcd, 0xab, 2, 1, 4, 3, 9, 8, 7] = .ok exampleFrame :=
  ⟨by decide, by decide +kernel, by decide +kernel, by decide +kernel, by decide +kernel⟩

/-- **C97** is false of the code: a frame with seventeen time correction elements and the same frame
with the last one cut off are read as the same frame. -/
theorem C97_false : ¬ C97_statement := by
  intro h
  have := h longFrame (longFrame.take 66)
    ⟨⟨.data, false, false, false, false, true, true, .absent, .absent, .v2020⟩, none,
      some ⟨none, some .absent, none, some .absent⟩,
      some ⟨List.replicate 16 (.timeCorrection ⟨.fromUs 0, false⟩), []⟩, none⟩
    (by decide +kernel) (by decide +kernel) (by decide +kernel) (by decide +kernel)
  exact absurd (congrArg List.length this) (by decide +kernel)

/-! ## Frames that were cut short -/

/-- The payload of a frame as octets: none if there is no payload. -/
def payloadOf (f : FrameRepr) : Bytes := f.payload.getD []

/-- What is read of a frame without information elements, octet by octet. -/
theorem parse_plain (o0 o1 : Byte) (l : Bytes) (h : Acceptable (o0 :: o1 :: l))
    (hie : (decodeFc o0 o1).iePresent = false) :
    ∃ (seq : Option Byte) (X : Bytes), l = seq.toList ++ X ∧
      seq.isSome = !(decodeFc o0 o1).seqNoSuppression ∧
      (((∀ p, fcPans o0 o1 = some p → X.length < fcAddrLen o0 o1 p) ∧
        FrameRepr.parse (o0 :: o1 :: l) = .ok ⟨decodeFc o0 o1, seq, none, none,
          if X = [] then none else some X⟩) ∨
      ∃ p dp d sp s R, fcPans o0 o1 = some p ∧ dp.isSome = p.dst ∧ sp.isSome = p.src ∧
        d.mode = (decodeFc o0 o1).dstMode ∧ s.mode = (decodeFc o0 o1).srcMode ∧
        X = Spec.addressing dp d sp s ++ R ∧
        FrameRepr.parse (o0 :: o1 :: l) = .ok ⟨decodeFc o0 o1, seq,
          some ⟨dp, some d, sp, some s⟩, none, if R = [] then none else some R⟩) := by
  obtain ⟨p0, p1, seq, A, I, R, af, ie, hb, g1, g2, g3, g4, g5, g6, -, g7, g8, g9, -, g10⟩ :=
    splits_data _ h
  have hb' : o0 :: o1 :: l = p0 :: p1 :: (seq.toList ++ (A ++ (I ++ R))) := by rw [hb]; simp
  simp only [List.cons.injEq] at hb'
  obtain ⟨rfl, rfl, rfl⟩ := hb'
  simp only [dataApi] at g1 g2 g4 g7 g10
  have hn := g9 hie
  subst hn
  have hI : I = [] := g8
  subst hI
  obtain ⟨-, -, q0, q1, q2, e, hseq, hsec, -, -, hd, hs⟩ := h
  simp only [List.cons.injEq] at e
  obtain ⟨rfl, rfl, -⟩ := e
  refine ⟨seq, A ++ R, by simp, g3, ?_⟩
  have hq : afterSeq o0 o1 (seq.toList ++ (A ++ ([] ++ R))) = A ++ R := by
    rw [afterSeq]
    revert g3
    cases (decodeFc o0 o1).seqNoSuppression <;> cases seq <;> simp
  have had := df_addressing o0 o1 (seq.toList ++ (A ++ ([] ++ R))) (by
    intro hq
    rw [hq] at g3
    cases seq <;> simp at g3 ⊢)
  rw [hq, g4] at had
  cases af with
  | none =>
    have hA : A = [] := g5
    subst hA
    left
    constructor
    · intro p hp
      rw [hp] at g6
      simpa using g6
    · rw [FrameRepr.parse, g1, bind_ok, FrameControlRepr.parse_cons, wRepr_eq_spec, bind_ok, g4,
        bind_ok, g7, g2, g10]
      simp [mapOpt]
  | some af =>
    right
    have key : ∀ x : Out AddressingFields, .ok (some af) = x.toOption → x = .ok af := by
      intro x hx
      cases x <;> simp [Out.toOption] at hx
      rw [hx]
    have hnew := key _ had
    obtain ⟨p, dp, d, sp, s, rest, e1, e2, e3, e4, e5, e6, k1, k2, k3, k4, k5⟩ :=
      C05_layout _ o0 o1 [] hd hs _ hnew
    obtain ⟨-, -, -, -, -, -, -, -, -, k⟩ := g5
    rw [k5] at k
    simp only [ok.injEq] at k
    obtain ⟨-, hR⟩ := List.append_inj e6 k.symm
    subst hR
    refine ⟨p, dp, d, sp, s, R, e1, e2, e3, e4, e5, e6, ?_⟩
    rw [FrameRepr.parse, g1, bind_ok, FrameControlRepr.parse_cons, wRepr_eq_spec, bind_ok, g4,
      bind_ok, g7, g2, g10]
    simp [mapOpt, AddressingFieldsRepr.parse, k1, k2, k3, k4]

/-- The octets of the addressing fields determine the fields. -/
theorem addressing_unique {dp dp' sp sp' : Option (BitVec 16)} {d d' s s' : Address}
    {R R' : Bytes} (h1 : dp.isSome = dp'.isSome) (h2 : d.mode = d'.mode)
    (h3 : sp.isSome = sp'.isSome) (h4 : s.mode = s'.mode)
    (h : Spec.addressing dp d sp s ++ R = Spec.addressing dp' d' sp' s' ++ R') :
    dp = dp' ∧ d = d' ∧ sp = sp' ∧ s = s' ∧ R = R' := by
  simp only [Spec.addressing, List.append_assoc] at h
  obtain ⟨e1, h⟩ := panBytes_inj h1 h
  obtain ⟨e2, h⟩ := addrBytes_inj h2 h
  obtain ⟨e3, h⟩ := panBytes_inj h3 h
  obtain ⟨e4, h⟩ := addrBytes_inj h4 h
  exact ⟨e1, e2, e3, e4, h⟩

theorem addressing_size {o0 o1 : Byte} {p : Pans} {dp sp : Option (BitVec 16)} {d s : Address}
    (h1 : dp.isSome = p.dst) (h2 : sp.isSome = p.src) (h3 : d.mode = (decodeFc o0 o1).dstMode)
    (h4 : s.mode = (decodeFc o0 o1).srcMode) :
    (Spec.addressing dp d sp s).length = fcAddrLen o0 o1 p := by
  simp only [Spec.addressing, List.length_append, panBytes_length, addrBytes_length, h1, h2, h3, h4,
    fcAddrLen]

theorem getD_octets (X : Bytes) : (if X = [] then none else some X).getD [] = X := by
  split
  · rename_i h; rw [h]; rfl
  · rfl

/-- **C97**, cutting: of a frame without information elements let only the first `n` octets arrive.
As long as the frame control field and the sequence number are there, what is left is accepted and
read as a frame with the same frame control field and the same sequence number.  If the cut is in
the payload, the addresses are the same and the payload is what is left of it.  If the cut is before the
payload, the frame is read as one without any addresses, and the octets left of the addressing
fields are given as its payload. -/
theorem C97_cut (b : Bytes) (f : FrameRepr) (n : Nat) (h : DataFrame.new b = .ok b)
    (hp : FrameRepr.parse b = .ok f) (hie : f.frameControl.iePresent = false)
    (hn : 2 + f.sequenceNumber.toList.length ≤ n) (hle : n ≤ b.length) :
    DataFrame.new (b.take n) = .ok (b.take n) ∧
    ∃ g, FrameRepr.parse (b.take n) = .ok g ∧ g.frameControl = f.frameControl ∧
      g.sequenceNumber = f.sequenceNumber ∧ g.informationElements = none ∧
      (if b.length - n ≤ (payloadOf f).length then
        g.addressingFields = f.addressingFields ∧
        payloadOf g = (payloadOf f).take ((payloadOf f).length - (b.length - n))
      else g.addressingFields = none ∧
        payloadOf g = (b.take n).drop (2 + f.sequenceNumber.toList.length)) := by
  have hacc : Acceptable b := by
    rcases C09_new b with ⟨h', -⟩ | ⟨-, h'⟩
    · exact h'
    · rw [h] at h'; cases h'
  have hacc0 := hacc
  obtain ⟨-, h127, o0, o1, l, rfl, hseq, hsec, ht, hv, hd, hs⟩ := hacc
  have hfc : f.frameControl = decodeFc o0 o1 := by
    obtain ⟨⟨p0, p1, m, e, e'⟩, -⟩ := (C67_parse_iff _ h f).mp hp
    simp only [List.cons.injEq] at e
    obtain ⟨rfl, rfl, -⟩ := e
    exact e'
  rw [hfc] at hie
  obtain ⟨seq, X, rfl, hsq, hX⟩ := parse_plain o0 o1 l hacc0 hie
  have hfs : f.sequenceNumber = seq := by
    rcases hX with ⟨-, e⟩ | ⟨p, dp, d, sp, s, R, -, -, -, -, -, -, e⟩ <;>
      (rw [hp] at e; simp only [ok.injEq] at e; rw [e])
  rw [hfs] at hn ⊢
  have htake : (o0 :: o1 :: (seq.toList ++ X)).take n =
      o0 :: o1 :: (seq.toList ++ X.take (n - 2 - seq.toList.length)) := by
    obtain ⟨m, rfl⟩ : ∃ m, n = m + seq.toList.length + 2 :=
      ⟨n - 2 - seq.toList.length, by omega⟩
    simp only [List.take_succ_cons]
    rw [show m + seq.toList.length + 2 - 2 - seq.toList.length = m by omega, List.take_append,
      List.take_of_length_le (by omega),
      show m + seq.toList.length - seq.toList.length = m by omega]
  rw [htake]
  generalize hk : n - 2 - seq.toList.length = k
  have hlen : (o0 :: o1 :: (seq.toList ++ X)).length = 2 + seq.toList.length + X.length := by
    simp; omega
  have hacc' : Acceptable (o0 :: o1 :: (seq.toList ++ X.take k)) := by
    have hl : (o0 :: o1 :: (seq.toList ++ X.take k)).length ≤
        (o0 :: o1 :: (seq.toList ++ X)).length := by simp
    refine ⟨by simp, by omega, o0, o1, _, rfl, fun hq => ?_, hsec, ht, hv, hd, hs⟩
    rw [hq] at hsq
    cases seq with
    | none => simp at hsq
    | some x => simp
  obtain ⟨seq', X', e, hsq', hX'⟩ := parse_plain o0 o1 _ hacc' hie
  obtain ⟨rfl, rfl⟩ : seq' = seq ∧ X' = X.take k := by
    rw [← hsq'] at hsq
    cases seq <;> cases seq' <;> simp_all
  refine ⟨by
    rcases C09_new (o0 :: o1 :: (seq'.toList ++ X.take k)) with ⟨-, h'⟩ | ⟨h', -⟩
    · exact h'
    · exact absurd hacc' h', ?_⟩
  have hdrop : (o0 :: o1 :: (seq'.toList ++ X.take k)).drop (2 + seq'.toList.length) =
      X.take k := by
    rw [show 2 + seq'.toList.length = seq'.toList.length + 2 by omega]
    simp
  rw [hdrop, hlen]
  rw [hlen] at hle
  rcases hX with ⟨hs1, e1⟩ | ⟨p, dp, d, sp, s, R, q1, q2, q3, q4, q5, q6, e1⟩
  · rw [hp] at e1
    simp only [ok.injEq] at e1
    subst e1
    rcases hX' with ⟨hs2, e2⟩ | ⟨p', dp', d', sp', s', R', r1, r2, r3, r4, r5, r6, e2⟩
    · refine ⟨_, e2, rfl, rfl, rfl, ?_⟩
      simp only [payloadOf, getD_octets]
      rw [if_pos (by omega)]
      exact ⟨trivial, by congr 1; omega⟩
    · have := hs1 p' r1
      have h1 := addressing_size (o0 := o0) (o1 := o1) r2 r3 r4 r5
      have h2 := congrArg List.length r6
      simp only [List.length_append, List.length_take] at h2
      omega
  · rw [hp] at e1
    simp only [ok.injEq] at e1
    subst e1
    have h1 := addressing_size (o0 := o0) (o1 := o1) q2 q3 q4 q5
    have h2 := congrArg List.length q6
    simp only [List.length_append] at h2
    rcases hX' with ⟨hs2, e2⟩ | ⟨p', dp', d', sp', s', R', r1, r2, r3, r4, r5, r6, e2⟩
    · refine ⟨_, e2, rfl, rfl, rfl, ?_⟩
      simp only [payloadOf, getD_octets]
      have := hs2 p q1
      rw [List.length_take] at this
      rw [if_neg (by omega)]
      exact ⟨trivial, trivial⟩
    · refine ⟨_, e2, rfl, rfl, rfl, ?_⟩
      simp only [payloadOf, getD_octets]
      rw [q1] at r1
      simp only [Option.some.injEq] at r1
      subst r1
      have h3 := addressing_size (o0 := o0) (o1 := o1) r2 r3 r4 r5
      have h4 := congrArg List.length r6
      simp only [List.length_append, List.length_take] at h4
      rw [if_pos (by omega)]
      have h5 : X.take k = Spec.addressing dp d sp s ++ R.take (k - fcAddrLen o0 o1 p) := by
        rw [q6, List.take_append, List.take_of_length_le (by omega), h1]
      rw [h5] at r6
      obtain ⟨rfl, rfl, rfl, rfl, e⟩ := addressing_unique (q2.trans r2.symm) (q4.trans r4.symm)
        (q3.trans r3.symm) (q5.trans r5.symm) r6
      refine ⟨rfl, ?_⟩
      rw [← e]
      congr 1
      omega

/-- So no cut goes unnoticed by who compares the frames, but none is refused. -/
theorem C97_cut_differs (b : Bytes) (f g : FrameRepr) (n : Nat) (h : DataFrame.new b = .ok b)
    (hp : FrameRepr.parse b = .ok f) (hie : f.frameControl.iePresent = false)
    (hn : 2 + f.sequenceNumber.toList.length ≤ n) (hlt : n < b.length)
    (hg : FrameRepr.parse (b.take n) = .ok g) : g ≠ f := by
  rintro rfl
  obtain ⟨h', -⟩ := C97_cut b g n h hp hie hn hlt.le
  have := congrArg List.length (C97_injective_partial b (b.take n) g h h' hp hg hie)
  have key : ∀ l : Bytes, (clearReserved l).length = l.length := by
    intro l; cases l <;> rfl
  rw [key, key, List.length_take] at this
  omega

/-- Shorter pieces are refused. -/
theorem C97_cut_refused (b : Bytes) (f : FrameRepr) (n : Nat) (h : DataFrame.new b = .ok b)
    (hp : FrameRepr.parse b = .ok f) (hn : n < 2 + f.sequenceNumber.toList.length) :
    DataFrame.new (b.take n) = .err := by
  rcases C09_new (b.take n) with ⟨h', -⟩ | ⟨-, h'⟩
  · exfalso
    have hacc : Acceptable b := by
      rcases C09_new b with ⟨h', -⟩ | ⟨-, h'⟩
      · exact h'
      · rw [h] at h'; cases h'
    obtain ⟨p0, p1, seq, A, I, R, af, ie, hb, -, g2, g3, -⟩ := splits_data _ hacc
    obtain ⟨-, hs, -⟩ := (C67_parse_iff _ h f).mp hp
    simp only [dataApi] at g2
    rw [g2] at hs
    simp only [ok.injEq] at hs
    rw [← hs] at hn
    obtain ⟨h2, -, o0, o1, l, e, hq, -⟩ := h'
    have hl : (b.take n).length ≤ n := by simp
    obtain ⟨m, rfl⟩ : ∃ m, n = m + 2 := ⟨n - 2, by omega⟩
    rw [hb] at e
    simp only [List.append_assoc, List.cons_append, List.nil_append, List.take_succ_cons,
      List.cons.injEq] at e
    obtain ⟨rfl, rfl, -⟩ := e
    cases seq with
    | none => simp at hn
    | some x =>
      have := hq (by simpa using g3)
      simp at hn
      omega
  · exact h'

/-- **C97**, the device: a frame for anyone, cut before its payload, is for us exactly if implicit
broadcast is configured: a device that has it set takes what is left of frames for other devices as
frames for itself. -/
theorem C97_cut_filter (c : Csma.Consts) (hw : Arr 8) (b : Bytes) (f : FrameRepr) (n : Nat)
    (h : DataFrame.new b = .ok b) (hp : FrameRepr.parse b = .ok f)
    (hie : f.frameControl.iePresent = false)
    (hn : 2 + f.sequenceNumber.toList.length ≤ n) (hle : n ≤ b.length)
    (hcut : (payloadOf f).length < b.length - n) :
    Csma.isPackageForUs c hw (b.take n) = .ok c.implicitBroadcast := by
  obtain ⟨h', g, hg, -, -, -, e⟩ := C97_cut b f n h hp hie hn hle
  rw [if_neg (by omega)] at e
  obtain ⟨-, -, ⟨af, ha, hs⟩, -⟩ := (C67_parse_iff _ h' g).mp hg
  rw [e.1] at hs
  have hnone : af = none := by
    cases af with
    | none => rfl
    | some _ => exact hs.elim
  subst hnone
  have hacc : Acceptable (b.take n) := by
    rcases C09_new (b.take n) with ⟨h', -⟩ | ⟨-, h''⟩
    · exact h'
    · rw [h'] at h''; cases h''
  obtain ⟨-, -, o0, o1, l, e', -, -, hty, hv, -⟩ := hacc
  rw [e'] at ha ⊢
  simp only [Csma.isPackageForUs, df_frameControl, bind_ok, fc_frameType, fc_version, if_neg hty,
    if_neg hv, Csma.dstAddressOf, ha]
  cases c.implicitBroadcast <;> simp [Address.isBroadcast]

/-- A frame for the device 01:02, cut within its destination address, at a device with another
address. -/
example : Csma.isPackageForUs { panId := 0xabcd, implicitBroadcast := true }
      ⟨[9, 9, 9, 9, 9, 9, 9, 9], rfl⟩
      [0x71, 0x98, 7, 0xcd, 0xab, 2, 1, 4, 3, 9, 8, 7] = .ok false ∧
    Csma.isPackageForUs { panId := 0xabcd, implicitBroadcast := true }
      ⟨[9, 9, 9, 9, 9, 9, 9, 9], rfl⟩
      [0x71, 0x98, 7, 0xcd, 0xab, 2] = .ok true :=
  ⟨by decide +kernel, by decide +kernel⟩

/-- The frame of the examples, cut within the payload, within the source address, and after the
sequence number. -/
example : FrameRepr.parse [0x71, 0x98, 7, 0xcd, 0xab, 2, 1, 4, 3, 9, 8, 7] = .ok exampleFrame ∧
    FrameRepr.parse [0x71, 0x98, 7, 0xcd, 0xab, 2, 1, 4, 3, 9] =
      .ok { exampleFrame with payload := some [9] } ∧
    FrameRepr.parse [0x71, 0x98, 7, 0xcd, 0xab, 2, 1, 4] =
      .ok { exampleFrame with addressingFields := none, payload := some [0xcd, 0xab, 2, 1, 4] } ∧
    FrameRepr.parse [0x71, 0x98, 7] =
      .ok { exampleFrame with addressingFields := none, payload := none } ∧
    DataFrame.new [0x71, 0x98] = .err :=
  ⟨by decide +kernel, by decide +kernel, by decide +kernel, by decide +kernel, by decide +kernel⟩

end Dot15d4.Props
