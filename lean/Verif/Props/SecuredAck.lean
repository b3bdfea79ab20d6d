import Verif.Props.Frames
import Verif.Props.Beacon

/-! # C13: enhanced acknowledgments with a security header -/

namespace Dot15d4.Props
open Out Spec

/-- **C13**, secured acknowledgments.  Frame control with the security bit, the sequence number
unless suppressed, the addressing fields, a security control octet followed by as many octets as the
message integrity code of its level has, and `X`: the reader of the security header starts at the
control octet, and the information elements and the payload are looked for in `X`.  (`_partial`:
frames too short for the fields they announce panic, `C13_false`.) -/
theorem C13_secured_partial (o0 o1 : Byte) (seq : Option Byte) (dp sp : Option (BitVec 16))
    (d s : Address) (c : Byte) (S X : Bytes) (m : Nat) (a e : Bool)
    (hsec : (decodeFc o0 o1).securityEnabled = true)
    (hseq : seq.isSome = !(decodeFc o0 o1).seqNoSuppression)
    (hp : fcPans o0 o1 = some ⟨dp.isSome, sp.isSome⟩)
    (hd : d.mode = (decodeFc o0 o1).dstMode) (hs : s.mode = (decodeFc o0 o1).srcMode)
    (hl : levelTable (c.toNat % 8) = some (m, a, e)) (hS : S.length = m) :
    let b := [o0, o1] ++ seq.toList ++ Spec.addressing dp d sp s ++ (c :: S) ++ X
    EnhancedAck.sequenceNumber b = .ok seq ∧
    EnhancedAck.auxSecHeader b = .ok (some (c :: S ++ X)) ∧
    ((decodeFc o0 o1).iePresent = false → EnhancedAck.informationElements b = .ok none ∧
      EnhancedAck.payload b = .ok (some X)) ∧
    ((decodeFc o0 o1).iePresent = true → InformationElements.new X = .ok X →
      EnhancedAck.informationElements b = .ok (some X) ∧
      ∃ n, InformationElements.len X = .ok n ∧ EnhancedAck.payload b = .ok (some (X.drop n))) := by
  intro b
  have hd' : (decodeFc o0 o1).dstMode ≠ .unknown := by rw [← hd]; cases d <;> simp [Address.mode]
  have hs' : (decodeFc o0 o1).srcMode ≠ .unknown := by rw [← hs]; cases s <;> simp [Address.mode]
  set A := Spec.addressing dp d sp s with hA
  have hbe : b = o0 :: o1 :: (seq.toList ++ (A ++ (c :: S ++ X))) := by
    simp only [b, ← hA, List.append_assoc, List.cons_append, List.nil_append]
  have e1 : EnhancedAck.frameControl b = .ok [o0, o1] := by
    rw [hbe]; simp [EnhancedAck.frameControl, sliceTo, FrameControl.new]
  obtain ⟨k, hk, hk2⟩ : ∃ k, k = 2 + seq.toList.length ∧
      2 + (if (decodeFc o0 o1).seqNoSuppression then 0 else 1) = k := by
    refine ⟨_, rfl, ?_⟩
    cases seq <;> cases hq : (decodeFc o0 o1).seqNoSuppression <;> rw [hq] at hseq <;> simp at hseq ⊢
  have hpre : b = ([o0, o1] ++ seq.toList) ++ (A ++ (c :: S ++ X)) := by
    rw [hbe]; simp
  have hk' : ([o0, o1] ++ seq.toList).length = k := by rw [hk, List.length_append]; rfl
  have hdrop : b.drop k = A ++ (c :: S ++ X) := by
    rw [hpre, ← hk', List.drop_left]
  have hblen : b.length = k + (A.length + (1 + S.length + X.length)) := by
    rw [hpre, List.length_append, hk']; simp; omega
  have hslice : ∀ n, n ≤ (A ++ (c :: S ++ X)).length →
      sliceFrom b (k + n) = .ok ((A ++ (c :: S ++ X)).drop n) := by
    intro n hn
    rw [sliceFrom_ok (by rw [hblen]; simp at hn; omega), ← List.drop_drop, hdrop]
  have hnew : AddressingFields.new (A ++ (c :: S ++ X)) [o0, o1] =
      .ok ⟨A ++ (c :: S ++ X), [o0, o1]⟩ := by
    rw [C05_new_iff _ _ _ _ hd' hs', hp]
    have : fcAddrLen o0 o1 ⟨dp.isSome, sp.isSome⟩ ≤ (A ++ (c :: S ++ X)).length := by
      rw [List.length_append, hA]
      simp only [fcAddrLen, ← hd, ← hs, addressing_length]; omega
    simp only [this, if_true]
  obtain ⟨p, dp2, d2, sp2, s2, rest, q1, q2, q3, q4, q5, -, -, -, -, -, q6⟩ :=
    C05_layout _ _ _ _ hd' hs' _ hnew
  rw [hp] at q1; cases q1
  have hlen : (Spec.addressing dp2 d2 sp2 s2).length = A.length := by
    rw [hA, addressing_length, addressing_length, q2, q3, q4, q5, hd, hs]
  rw [hlen] at q6
  have e3 : EnhancedAck.addressing b = .ok (some ⟨A ++ (c :: S ++ X), [o0, o1]⟩) := by
    simp only [EnhancedAck.addressing, e1, bind_ok, fc_sup]
    have h0 := hslice 0 (by omega)
    simp only [Nat.add_zero, List.drop_zero] at h0
    cases hq : (decodeFc o0 o1).seqNoSuppression <;> rw [hq] at hk2 <;>
      simp only [if_true, Bool.false_eq_true, if_false, Nat.add_zero, Nat.reduceAdd] at hk2 ⊢ <;>
      rw [← hk2] at h0 <;> rw [h0, bind_ok, hnew] <;> rfl
  have e4 : EnhancedAck.addrEnd b = .ok (k + A.length) := by
    simp only [EnhancedAck.addrEnd, e1, bind_ok, fc_sup, e3, q6, hk2]
  have haux : sliceFrom b (k + A.length) = .ok (c :: S ++ X) := by
    rw [hslice A.length (by simp), List.drop_left]
  have e5 : EnhancedAck.auxSecHeader b = .ok (some (c :: S ++ X)) := by
    simp only [EnhancedAck.auxSecHeader, e4, e1, bind_ok, fc_security, hsec, if_true, haux]
  have hm : AuxSecHeader.len (c :: S ++ X) = .ok (1 + m) :=
    ((C34_levels_partial c (S ++ X)).1 m a e hl).2.2
  have e6 : EnhancedAck.secEnd b = .ok (k + A.length + (1 + m)) := by
    simp only [EnhancedAck.secEnd, e4, e1, bind_ok, fc_security, hsec, if_true, e5, hm]
  have hX : ∀ n, n ≤ X.length → sliceFrom b (k + A.length + (1 + m) + n) = .ok (X.drop n) := by
    intro n hn
    have h1 := hslice (A.length + (1 + m) + n) (by simp; omega)
    have h2 : k + A.length + (1 + m) + n = k + (A.length + (1 + m) + n) := by omega
    rw [h2, h1, Nat.add_assoc, ← List.drop_drop, List.drop_left, ← List.drop_drop]
    congr 2
    have h3 : (c :: S).length = 1 + m := by simp [hS]; omega
    rw [← h3, List.drop_left]
  have hX0 := hX 0 (by omega)
  simp only [Nat.add_zero, List.drop_zero] at hX0
  refine ⟨?_, e5, ?_, ?_⟩
  · simp only [EnhancedAck.sequenceNumber, e1, bind_ok, fc_sup]
    cases seq with
    | none =>
      have : (decodeFc o0 o1).seqNoSuppression = true := by simpa using hseq
      simp [this]
    | some x =>
      have : (decodeFc o0 o1).seqNoSuppression = false := by simpa using hseq
      rw [hbe]
      simp [this, idx]
  · intro hi
    simp only [EnhancedAck.informationElements, EnhancedAck.payload, e6, e1, bind_ok, fc_ie, hi,
      Bool.false_eq_true, if_false, hX0, and_self]
  · intro hi hn
    have h1 : EnhancedAck.informationElements b = .ok (some X) := by
      simp only [EnhancedAck.informationElements, e6, e1, bind_ok, fc_ie, hi, if_true, hX0, hn]
      rfl
    obtain ⟨-, hs, ps, rest, hi', pi, e1', e2', hx, -, -, -, -, -, -, -, -, -, hln, -⟩ :=
      C15_partition X X hn
    refine ⟨h1, _, hln, ?_⟩
    simp only [EnhancedAck.payload, e6, e1, bind_ok, fc_ie, hi, if_true, h1, hln]
    rw [hX _ (by
      conv => rhs; rw [hx]
      simp)]
    rfl

/-- An acknowledgment with a short destination address, security level 1 and a payload. -/
example : EnhancedAck.payload [0x0a, 0x28, 0x37, 0xcd, 0xab, 0x34, 0x12, 0x01, 1, 2, 3, 4, 0xaa] =
    .ok (some [0xaa]) := by decide

example : (decodeFc 0x0a 0x28).securityEnabled = true ∧
    fcPans 0x0a 0x28 = some ⟨true, false⟩ ∧ (decodeFc 0x0a 0x28).dstMode = .short ∧
    (decodeFc 0x0a 0x28).srcMode = .absent ∧ levelTable ((0x01 : Byte).toNat % 8) =
      some (4, true, false) := by decide

/-! ## Exactly when the accessors panic -/

/-- Number of octets of the message integrity code of a security control octet (table 9-6; the code
gives the reserved level 4 none). -/
def micOctets (c : Byte) : Nat :=
  if c.toNat % 4 = 0 then 0 else if c.toNat % 4 = 1 then 4 else if c.toNat % 4 = 2 then 8 else 16

theorem auxLen_eq (c : Byte) (l : Bytes) : AuxSecHeader.len (c :: l) = .ok (1 + micOctets c) := by
  have h : ∀ c : Byte, SecurityLevel.micLength (SecurityControl.securityLevel c) = micOctets c := by
    decide
  simp [AuxSecHeader.len, AuxSecHeader.securityControl, h]

/-- How many octets the addressing fields take from `X`: what the table entry needs, or none if the
table has no entry or `X` is too short for it. -/
def addressingTaken (o0 o1 : Byte) (X : Bytes) : Option Nat :=
  match fcPans o0 o1 with
  | some p => if fcAddrLen o0 o1 p ≤ X.length then some (fcAddrLen o0 o1 p) else none
  | none => none

/-- What follows the security header of `R`, when it is complete. -/
def afterSecurity : Bytes → Option Bytes
  | [] => none
  | c :: S => if micOctets c ≤ S.length then some (S.drop (micOctets c)) else none

/-- What the accessors of the acknowledgment `o0 o1 [seq] X` return, if the addressing fields take
`t` octets of `X` (`none`: there are none): the security header is what follows the addressing
fields, and only what is behind it can be missing or malformed. -/
def AckReads (o0 o1 : Byte) (seq : Option Byte) (X : Bytes) (t : Option Nat) : Prop :=
  let b := o0 :: o1 :: (seq.toList ++ X)
  let R := X.drop (t.getD 0)
  EnhancedAck.frameControl b = .ok [o0, o1] ∧
  EnhancedAck.sequenceNumber b = .ok seq ∧
  EnhancedAck.addressing b = .ok (t.map fun _ => ⟨X, [o0, o1]⟩) ∧
  EnhancedAck.auxSecHeader b = .ok (if (decodeFc o0 o1).securityEnabled then some R else none) ∧
  (∀ Y, (if (decodeFc o0 o1).securityEnabled then afterSecurity R else some R) = some Y →
    ((decodeFc o0 o1).iePresent = false →
      EnhancedAck.informationElements b = .ok none ∧ EnhancedAck.payload b = .ok (some Y)) ∧
    ((decodeFc o0 o1).iePresent = true →
      (InformationElements.new Y = .err ∧ EnhancedAck.informationElements b = .panic ∧
        EnhancedAck.payload b = .panic) ∨
      (InformationElements.new Y = .ok Y ∧
        EnhancedAck.informationElements b = .ok (some Y) ∧
        ∃ n, n ≤ Y.length ∧ InformationElements.len Y = .ok n ∧
          EnhancedAck.payload b = .ok (some (Y.drop n))))) ∧
  ((decodeFc o0 o1).securityEnabled = true → afterSecurity R = none →
    EnhancedAck.payload b = .panic ∧
    EnhancedAck.informationElements b =
      if R ≠ [] ∧ (decodeFc o0 o1).iePresent = false then .ok none else .panic)

theorem ack_offset {o0 o1 : Byte} {seq : Option Byte}
    (hseq : seq.isSome = !(decodeFc o0 o1).seqNoSuppression) :
    ∃ k, ([o0, o1] ++ seq.toList).length = k ∧
      2 + (if (decodeFc o0 o1).seqNoSuppression then 0 else 1) = k := by
  refine ⟨_, rfl, ?_⟩
  cases seq <;> cases hq : (decodeFc o0 o1).seqNoSuppression <;> rw [hq] at hseq <;> simp at hseq ⊢

theorem ack_addressing {o0 o1 : Byte} {seq : Option Byte} {X : Bytes} {t : Option AddressingFields}
    (hseq : seq.isSome = !(decodeFc o0 o1).seqNoSuppression)
    (hnew : (AddressingFields.new X [o0, o1]).toOption = .ok t) :
    EnhancedAck.addressing (o0 :: o1 :: (seq.toList ++ X)) = .ok t := by
  have e1 : ∀ l, EnhancedAck.frameControl (o0 :: o1 :: l) = .ok [o0, o1] := fun l => by
    simp [EnhancedAck.frameControl, sliceTo, FrameControl.new]
  simp only [EnhancedAck.addressing, e1, bind_ok, fc_sup]
  cases seq with
  | none =>
    have : (decodeFc o0 o1).seqNoSuppression = true := by simpa using hseq
    simp only [this, if_true, Option.toList_none, List.nil_append]
    rw [sliceFrom_ok (by simp)]
    exact hnew
  | some x =>
    have : (decodeFc o0 o1).seqNoSuppression = false := by simpa using hseq
    simp only [this, Option.toList_some, List.cons_append, List.nil_append]
    rw [sliceFrom_ok (by simp)]
    exact hnew

theorem ackReads {o0 o1 : Byte} {seq : Option Byte} {X : Bytes} {t : Option Nat}
    (hseq : seq.isSome = !(decodeFc o0 o1).seqNoSuppression)
    (hnew : (AddressingFields.new X [o0, o1]).toOption = .ok (t.map fun _ => ⟨X, [o0, o1]⟩))
    (ht : ∀ n, t = some n → n ≤ X.length ∧ AddressingFields.len ⟨X, [o0, o1]⟩ = .ok n) :
    AckReads o0 o1 seq X t := by
  unfold AckReads
  intro b R
  have hR' : R = X.drop (t.getD 0) := rfl
  clear_value R
  subst hR'
  have e1 : EnhancedAck.frameControl b = .ok [o0, o1] := by
    simp [b, EnhancedAck.frameControl, sliceTo, FrameControl.new]
  obtain ⟨k, hk', hk2⟩ := ack_offset hseq
  have hpre : b = ([o0, o1] ++ seq.toList) ++ X := by simp [b]
  have hblen : b.length = k + X.length := by rw [hpre, List.length_append, hk']
  have hslice : ∀ n, n ≤ X.length → sliceFrom b (k + n) = .ok (X.drop n) := by
    intro n hn
    rw [sliceFrom_ok (by rw [hblen]; omega), ← List.drop_drop]
    congr 2
    rw [hpre, ← hk', List.drop_left]
  have hover : ∀ n, X.length < n → sliceFrom b (k + n) = .panic := by
    intro n hn
    simp only [sliceFrom, hblen]
    rw [if_neg (by omega)]
  have e3 : EnhancedAck.addressing b = .ok (t.map fun _ => ⟨X, [o0, o1]⟩) :=
    ack_addressing hseq hnew
  have htaken : t.getD 0 ≤ X.length := by
    cases t with
    | none => simp
    | some n => exact (ht n rfl).1
  have e4 : EnhancedAck.addrEnd b = .ok (k + t.getD 0) := by
    simp only [EnhancedAck.addrEnd, e1, bind_ok, fc_sup, e3, hk2]
    cases t with
    | none => rfl
    | some n => simp only [Option.map_some, (ht n rfl).2, bind_ok, Option.getD_some]
  obtain ⟨a, ha⟩ : ∃ a, t.getD 0 = a := ⟨_, rfl⟩
  rw [ha]
  refine ⟨e1, ?_, e3, ?_, ?_, ?_⟩
  · simp only [EnhancedAck.sequenceNumber, e1, bind_ok, fc_sup]
    cases seq with
    | none =>
      have : (decodeFc o0 o1).seqNoSuppression = true := by simpa using hseq
      simp [this]
    | some x =>
      have : (decodeFc o0 o1).seqNoSuppression = false := by simpa using hseq
      rw [hpre]
      simp [this, idx]
  all_goals
    rw [ha] at e4 htaken
    have e5 : EnhancedAck.auxSecHeader b =
        .ok (if (decodeFc o0 o1).securityEnabled then some (X.drop a) else none) := by
      simp only [EnhancedAck.auxSecHeader, e4, e1, bind_ok, fc_security, hslice a htaken]
      split <;> rfl
  · exact e5
  · intro Y hY
    obtain ⟨m, hm, e6, rfl⟩ : ∃ m, m ≤ X.length ∧ EnhancedAck.secEnd b = .ok (k + m) ∧
        X.drop m = Y := by
      simp only [EnhancedAck.secEnd, e4, e1, bind_ok, fc_security, e5]
      cases hsec : (decodeFc o0 o1).securityEnabled with
      | false => rw [hsec] at hY; cases hY; exact ⟨a, htaken, rfl, rfl⟩
      | true =>
        rw [hsec] at hY; simp only [if_true] at hY ⊢
        cases hR : X.drop a with
        | nil => rw [hR] at hY; cases hY
        | cons c S =>
          rw [hR] at hY; simp only [afterSecurity] at hY
          split at hY
          · rename_i hle
            cases hY
            have hX : X.length = a + (S.length + 1) := by
              have := congrArg List.length hR; simp at this; omega
            refine ⟨a + (1 + micOctets c), by omega, by simp [auxLen_eq]; omega, ?_⟩
            rw [← List.drop_drop, hR, Nat.add_comm 1, List.drop_succ_cons]
          · cases hY
    have hY0 : sliceFrom b (k + m) = .ok (X.drop m) := hslice m hm
    refine ⟨fun hi => ?_, fun hi => ?_⟩
    · simp only [EnhancedAck.informationElements, EnhancedAck.payload, e6, e1, bind_ok, fc_ie, hi,
        Bool.false_eq_true, if_false, hY0, and_self]
    · have hie : EnhancedAck.informationElements b =
          ((InformationElements.new (X.drop m)).unwrap >>= fun ie => .ok (some ie)) := by
        simp only [EnhancedAck.informationElements, e6, e1, bind_ok, fc_ie, hi, if_true, hY0]
      cases hn : InformationElements.new (X.drop m) with
      | panic => exact absurd hn (C15_new_total _)
      | err =>
        rw [hn] at hie
        refine .inl ⟨rfl, hie, ?_⟩
        simp only [EnhancedAck.payload, e6, e1, bind_ok, fc_ie, hi, if_true, hie]; rfl
      | ok ie =>
        obtain ⟨rfl, hs, ps, rest, hi', pi, e1', e2', hx, -, -, -, -, -, -, -, -, -, hln, -⟩ :=
          C15_partition _ _ hn
        rw [hn] at hie
        have hle : hs.flatten.length + ps.flatten.length ≤ (X.drop m).length := by
          conv => rhs; rw [hx]
          simp
        refine .inr ⟨rfl, hie, _, hle, hln, ?_⟩
        rw [List.length_drop] at hle
        simp only [EnhancedAck.payload, e6, e1, bind_ok, fc_ie, hi, if_true, hie, unwrap, hln]
        rw [Nat.add_assoc, hslice _ (by omega), List.drop_drop]
        rfl
  · intro hsec hnone
    rw [hsec, if_pos rfl] at e5
    cases hR : X.drop a with
    | nil =>
      rw [hR] at e5
      have e6 : EnhancedAck.secEnd b = .panic := by
        simp only [EnhancedAck.secEnd, e4, e1, bind_ok, fc_security, hsec, if_true, e5]; rfl
      refine ⟨by simp only [EnhancedAck.payload, e6]; rfl, ?_⟩
      simp only [EnhancedAck.informationElements, e6]; rfl
    | cons c S =>
      rw [hR] at e5 hnone
      have hX : X.length = a + (S.length + 1) := by
        have := congrArg List.length hR; simp at this; omega
      have hlt : S.length < micOctets c := by
        simp only [afterSecurity] at hnone
        split at hnone
        · cases hnone
        · omega
      have e6 : EnhancedAck.secEnd b = .ok (k + (a + (1 + micOctets c))) := by
        simp only [EnhancedAck.secEnd, e4, e1, bind_ok, fc_security, hsec, if_true, e5, auxLen_eq,
          Nat.add_assoc]
      have hie : EnhancedAck.informationElements b =
          if (decodeFc o0 o1).iePresent = false then .ok none else .panic := by
        simp only [EnhancedAck.informationElements, e6, e1, bind_ok, fc_ie,
          hover (a + (1 + micOctets c)) (by omega)]
        cases (decodeFc o0 o1).iePresent <;> rfl
      refine ⟨?_, by rw [hie]; simp⟩
      simp only [EnhancedAck.payload, e6, e1, bind_ok, fc_ie, hie]
      cases (decodeFc o0 o1).iePresent
      · simp [hover (a + (1 + micOctets c)) (by omega)]
      · rfl


/-- Every string of at least two octets either announces a sequence number that is not there, or
consists of the frame control, the announced sequence number and a rest. -/
theorem ack_split (o0 o1 : Byte) (l : Bytes) :
    ((decodeFc o0 o1).seqNoSuppression = false ∧ l = []) ∨
    ∃ (seq : Option Byte) (X : Bytes), l = seq.toList ++ X ∧
        seq.isSome = !(decodeFc o0 o1).seqNoSuppression := by
  cases hq : (decodeFc o0 o1).seqNoSuppression with
  | true => exact .inr ⟨none, l, by simp, by simp⟩
  | false =>
    cases l with
    | nil => exact .inl ⟨rfl, rfl⟩
    | cons x X => exact .inr ⟨some x, X, by simp, by simp⟩

/-- All accessors of the acknowledgment but the frame control and the sequence number. -/
def LatePanics (b : Bytes) : Prop :=
  EnhancedAck.auxSecHeader b = .panic ∧ EnhancedAck.informationElements b = .panic ∧
  EnhancedAck.payload b = .panic

theorem latePanics {b : Bytes} (h : EnhancedAck.addrEnd b = .panic) : LatePanics b := by
  have e5 : EnhancedAck.secEnd b = .panic := by simp only [EnhancedAck.secEnd, h]; rfl
  refine ⟨?_, ?_, ?_⟩
  · simp only [EnhancedAck.auxSecHeader, h]; rfl
  · simp only [EnhancedAck.informationElements, e5]; rfl
  · simp only [EnhancedAck.payload, e5]; rfl

/-- The frame control of `o0 o1` has a reserved addressing mode for one address and none for the
other in a frame of version 2020: the combination that `AddressingFields::new` lets through. -/
def ReservedLetThrough (o0 o1 : Byte) (X : Bytes) : Prop :=
  (decodeFc o0 o1).frameVersion = .v2020 ∧
  (((decodeFc o0 o1).dstMode = .unknown ∧ (decodeFc o0 o1).srcMode = .absent) ∨
    ((decodeFc o0 o1).dstMode = .absent ∧ (decodeFc o0 o1).srcMode = .unknown)) ∧
  ((decodeFc o0 o1).panIdCompression = true ∨ 2 ≤ X.length)

/-- **C13**, exactly, for every string of octets.  (1) Less than two octets: every accessor panics.
(2) An announced sequence number is missing: every accessor but the frame control panics.
(3) Otherwise, if neither addressing mode is reserved, the accessors return what `AckReads` says
with the addressing fields of the table, if they fit.  (4) With a reserved mode there are either no
addressing fields, or there are some whose length panics, and then so does every accessor of what
follows.  (`_partial`: so the accessors do not always return, `C13_false`.) -/
theorem C13_exact_partial (b : Bytes) :
    (b.length < 2 ∧ EnhancedAck.frameControl b = .panic ∧ EnhancedAck.sequenceNumber b = .panic ∧
      EnhancedAck.addressing b = .panic ∧ LatePanics b) ∨
    (∃ o0 o1, b = [o0, o1] ∧ (decodeFc o0 o1).seqNoSuppression = false ∧
      EnhancedAck.frameControl b = .ok [o0, o1] ∧ EnhancedAck.sequenceNumber b = .panic ∧
      EnhancedAck.addressing b = .panic ∧ LatePanics b) ∨
    (∃ (o0 o1 : Byte) (seq : Option Byte) (X : Bytes), b = o0 :: o1 :: (seq.toList ++ X) ∧
      seq.isSome = !(decodeFc o0 o1).seqNoSuppression ∧
      (((decodeFc o0 o1).dstMode ≠ .unknown ∧ (decodeFc o0 o1).srcMode ≠ .unknown ∧
          AckReads o0 o1 seq X (addressingTaken o0 o1 X)) ∨
        (((decodeFc o0 o1).dstMode = .unknown ∨ (decodeFc o0 o1).srcMode = .unknown) ∧
          ((¬ ReservedLetThrough o0 o1 X ∧ AckReads o0 o1 seq X none) ∨
          (ReservedLetThrough o0 o1 X ∧ EnhancedAck.frameControl b = .ok [o0, o1] ∧
            EnhancedAck.sequenceNumber b = .ok seq ∧
            EnhancedAck.addressing b = .ok (some ⟨X, [o0, o1]⟩) ∧ LatePanics b))))) := by
  match b with
  | [] => exact .inl ⟨by simp, by decide, by decide, by decide, by decide, by decide, by decide⟩
  | [o] =>
    have e1 : EnhancedAck.frameControl [o] = .panic := rfl
    have e3 : EnhancedAck.addressing [o] = .panic := by
      simp only [EnhancedAck.addressing, e1]; rfl
    exact .inl ⟨by simp, e1, by simp only [EnhancedAck.sequenceNumber, e1]; rfl, e3,
      latePanics (by simp only [EnhancedAck.addrEnd, e1]; rfl)⟩
  | o0 :: o1 :: l =>
    right
    have e1 : ∀ l, EnhancedAck.frameControl (o0 :: o1 :: l) = .ok [o0, o1] := fun l => by
      simp [EnhancedAck.frameControl, sliceTo, FrameControl.new]
    rcases ack_split o0 o1 l with ⟨hq, rfl⟩ | ⟨seq, X, rfl, hseq⟩
    · refine .inl ⟨o0, o1, rfl, hq, e1 _, ?_⟩
      have e3 : EnhancedAck.addressing [o0, o1] = .panic := by
        simp only [EnhancedAck.addressing, e1, bind_ok, fc_sup, hq]
        simp [sliceFrom]
      refine ⟨?_, e3, latePanics ?_⟩
      · simp only [EnhancedAck.sequenceNumber, e1, bind_ok, fc_sup, hq]
        simp [idx]
      · simp only [EnhancedAck.addrEnd, e1, bind_ok, fc_sup, e3]; rfl
    · refine .inr ⟨o0, o1, seq, X, rfl, hseq, ?_⟩
      by_cases hk : (decodeFc o0 o1).dstMode = .unknown ∨ (decodeFc o0 o1).srcMode = .unknown
      · refine .inr ⟨hk, ?_⟩
        have hf := flags_cons X o0 o1 []
        have h := wRepr_eq_spec o0 o1
        have g1 := congrArg FrameControlRepr.frameVersion h
        have g2 := congrArg FrameControlRepr.dstMode h
        have g3 := congrArg FrameControlRepr.srcMode h
        have g4 := congrArg FrameControlRepr.panIdCompression h
        simp only [wRepr] at g1 g2 g3 g4
        rw [g1, g2, g3, g4] at hf
        by_cases hr : ReservedLetThrough o0 o1 X
        · refine .inr ⟨hr, e1 _, ?_⟩
          obtain ⟨hv, hm, hx⟩ := hr
          have hnew : AddressingFields.new X [o0, o1] = .ok ⟨X, [o0, o1]⟩ := by
            rcases hm with ⟨h1, h2⟩ | ⟨h1, h2⟩ <;>
            · rw [hv, h1, h2] at hf
              cases hc : (decodeFc o0 o1).panIdCompression <;> rw [hc] at hf hx <;>
              · rw [new_some hf]
                simp [PresentFlags.size, AddressingMode.size] at hx ⊢
                try assumption
          have e3 := ack_addressing (t := some ⟨X, [o0, o1]⟩) hseq (by rw [hnew]; rfl)
          refine ⟨?_, e3, latePanics ?_⟩
          · simp only [EnhancedAck.sequenceNumber, e1, bind_ok, fc_sup]
            cases seq with
            | none =>
              have : (decodeFc o0 o1).seqNoSuppression = true := by simpa using hseq
              simp [this]
            | some x =>
              have : (decodeFc o0 o1).seqNoSuppression = false := by simpa using hseq
              simp [this, idx]
          · have hlen : AddressingFields.len ⟨X, [o0, o1]⟩ = .panic := by
              have hdm : FrameControl.dstMode [o0, o1] = .ok (decodeFc o0 o1).dstMode := by
                simp [FrameControl.dstMode, g2]
              have hsm : FrameControl.srcMode [o0, o1] = .ok (decodeFc o0 o1).srcMode := by
                simp [FrameControl.srcMode, g3]
              rcases hm with ⟨h1, h2⟩ | ⟨h1, h2⟩ <;>
              · rw [hv, h1, h2] at hf
                rw [h1] at hdm
                rw [h2] at hsm
                cases hc : (decodeFc o0 o1).panIdCompression <;> rw [hc] at hf hx
                · obtain ⟨x0, x1, X', rfl⟩ : ∃ x0 x1 X', X = x0 :: x1 :: X' := by
                    match X, hx with
                    | [], h => simp at h
                    | [_], h => simp at h
                    | x0 :: x1 :: X', _ => exact ⟨x0, x1, X', rfl⟩
                  simp [AddressingFields.len, AddressingFields.dstPanId, AddressingFields.srcPanId, hf,
                    hdm, hsm, addressPresentFlags, AddressingFields.modeLen, AddressingMode.size,
                    sliceFrom]
                · simp [AddressingFields.len, AddressingFields.dstPanId, AddressingFields.srcPanId, hf,
                    hdm, hsm, addressPresentFlags, AddressingFields.modeLen]
            simp only [EnhancedAck.addrEnd, e1, bind_ok, fc_sup, e3, hlen]
            rfl
        · refine .inl ⟨hr, ackReads hseq ?_ (by simp)⟩
          have hnew : AddressingFields.new X [o0, o1] = .err := by
            revert hf hr hk
            unfold ReservedLetThrough
            cases (decodeFc o0 o1).frameVersion <;> cases (decodeFc o0 o1).dstMode <;>
              cases (decodeFc o0 o1).srcMode <;> cases (decodeFc o0 o1).panIdCompression <;>
              intro hk hf hr <;> (try exact new_none hf) <;> simp at hk <;> simp at hr <;>
              · rw [new_some hf]
                simp [PresentFlags.size, AddressingMode.size]
                omega
          rw [hnew]; rfl
      · rw [not_or] at hk
        obtain ⟨hd, hs⟩ := hk
        refine .inl ⟨hd, hs, ackReads hseq ?_ ?_⟩
        · rw [C05_new_iff _ _ _ _ hd hs, addressingTaken]
          cases fcPans o0 o1 with
          | none => rfl
          | some p => dsimp only; split <;> rfl
        · intro n ht
          obtain ⟨p, hp, hle, rfl⟩ : ∃ p, fcPans o0 o1 = some p ∧
              fcAddrLen o0 o1 p ≤ X.length ∧ n = fcAddrLen o0 o1 p := by
            unfold addressingTaken at ht
            cases hp : fcPans o0 o1 with
            | none => rw [hp] at ht; cases ht
            | some p =>
              rw [hp] at ht; dsimp only at ht
              split at ht
              · rename_i hle; cases ht; exact ⟨p, rfl, hle, rfl⟩
              · cases ht
          have hn : AddressingFields.new X [o0, o1] = .ok ⟨X, [o0, o1]⟩ := by
            rw [C05_new_iff _ _ _ _ hd hs, hp]; simp [hle]
          obtain ⟨p', dp, d, sp, s, rest, q1, q2, q3, q4, q5, -, -, -, -, -, q6⟩ :=
            C05_layout _ _ _ _ hd hs _ hn
          rw [hp] at q1; cases q1
          refine ⟨hle, ?_⟩
          rw [q6, addressing_length, fcAddrLen, q2, q3, q4, q5]

/-- Non-vacuity: a secured acknowledgment whose message integrity code is cut short (case 3), one with
a reserved destination mode that is let through and one for which `X` is too short (case 4). -/
example : (decodeFc 0x0a 0x28).dstMode ≠ .unknown ∧ (decodeFc 0x0a 0x28).srcMode ≠ .unknown ∧
    addressingTaken 0x0a 0x28 [0xcd, 0xab, 0x34, 0x12, 0x01, 1, 2] = some 4 ∧
    afterSecurity [0x01, 1, 2] = none ∧ afterSecurity [0x01, 1, 2, 3, 4, 9] = some [9] ∧
    EnhancedAck.payload [0x0a, 0x28, 0x37, 0xcd, 0xab, 0x34, 0x12, 0x01, 1, 2] = .panic := by decide

example : ReservedLetThrough 0x02 0x24 [1, 2] ∧ ¬ ReservedLetThrough 0x02 0x24 [1] ∧
    EnhancedAck.payload [0x02, 0x24, 0x37, 1, 2] = .panic ∧
    EnhancedAck.payload [0x02, 0x24, 0x37, 1] = .ok (some [1]) := by
  refine ⟨⟨by decide, by decide, by decide⟩, ?_, by decide, by decide⟩
  rintro ⟨-, -, h⟩
  revert h; decide

end Dot15d4.Props
