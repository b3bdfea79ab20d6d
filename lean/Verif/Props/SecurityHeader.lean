import Verif.Props.StdBeacon
import Verif.Props.SecuredAck

/-! # C90: the length of the auxiliary security header -/

namespace Dot15d4.Props
open Out Spec

/-- **C90**: the reader of the security header knows its length. -/
def C90_statement : Prop := ∀ (c : Byte) (l : Bytes),
  AuxSecHeader.len (c :: l) = .ok (securityHeaderLen c)

/-- The reader's length is that of the security control octet and the message integrity code, which is
not part of the header. -/
theorem C90_reported (c : Byte) (l : Bytes) : AuxSecHeader.len (c :: l) = .ok (1 + micOctets c) :=
  auxLen_eq c l

example : AuxSecHeader.len [0x0e, 1, 2] = .ok 9 := C90_reported 0x0e [1, 2]

/-- **C90**, exactly: the length is right for headers without frame counter and without key identifier
at the levels without integrity code (0, and 4, which is reserved), and for headers with frame counter
and without key identifier at the levels with a code of four octets (1 and 5), and for no others. -/
theorem C90_exact_partial (c : Byte) (l : Bytes) :
    AuxSecHeader.len (c :: l) = .ok (securityHeaderLen c) ↔
      (c.toNat % 4 = 0 ∧ c.toNat / 32 % 2 = 1 ∧ c.toNat / 8 % 4 = 0) ∨
      (c.toNat % 4 = 1 ∧ c.toNat / 32 % 2 = 0 ∧ c.toNat / 8 % 4 = 0) := by
  rw [auxLen_eq]
  simp only [ok.injEq]
  revert c
  decide

example : AuxSecHeader.len [5, 1, 2, 3, 4] = .ok (securityHeaderLen 5) :=
  (C90_exact_partial 5 [1, 2, 3, 4]).2 (by decide)

theorem C90_false : ¬ C90_statement := fun h => by
  have := (C90_exact_partial 6 []).1 (h 6 [])
  revert this
  decide

/-- What this means for a secured beacon with security control octet `c` and the octets `S` of the rest
of its security header: the superframe specification is taken from the octets behind as many octets as
the integrity code has. -/
theorem C90_beacon (o0 o1 seq c : Byte) (A S X : Bytes)
    (hd : (decodeFc o0 o1).dstMode ≠ .unknown) (hs : (decodeFc o0 o1).srcMode ≠ .unknown)
    (ha : ∃ p, fcPans o0 o1 = some p ∧ A.length = fcAddrLen o0 o1 p)
    (hp : (decodeFc o0 o1).securityEnabled = true) :
    Beacon.superframeSpecification ([o0, o1, seq] ++ A ++ (c :: S) ++ X) =
      if micOctets c + 2 ≤ (S ++ X).length then .ok (((S ++ X).drop (micOctets c)).take 2)
      else .panic := by
  have hb : [o0, o1, seq] ++ A ++ (c :: S) ++ X = o0 :: o1 :: seq :: (A ++ (c :: (S ++ X))) := by simp
  rw [hb]
  generalize S ++ X = Y
  simp only [Beacon.superframeSpecification]
  rw [beacon_headerEnd hd hs ha, hp, if_pos rfl, auxLen_eq, bind_ok, bind_ok, beacon_slice]
  simp only [sliceFrom, List.length_cons, show 1 + micOctets c = micOctets c + 1 from by omega,
    List.drop_succ_cons]
  by_cases h : micOctets c + 2 ≤ Y.length
  · rw [if_pos (by omega), if_pos h, bind_ok, sliceTo, if_pos (by rw [List.length_drop]; omega)]
  · rw [if_neg h]
    split
    · rw [bind_ok, sliceTo, if_neg (by rw [List.length_drop]; omega)]
    · rfl

/-- It is read from where it is if the length is right ... -/
theorem C90_beacon_right (o0 o1 seq c s0 s1 : Byte) (A S Z : Bytes)
    (hd : (decodeFc o0 o1).dstMode ≠ .unknown) (hs : (decodeFc o0 o1).srcMode ≠ .unknown)
    (ha : ∃ p, fcPans o0 o1 = some p ∧ A.length = fcAddrLen o0 o1 p)
    (hp : (decodeFc o0 o1).securityEnabled = true) (hS : (c :: S).length = securityHeaderLen c)
    (hc : AuxSecHeader.len (c :: S) = .ok (securityHeaderLen c)) :
    Beacon.superframeSpecification ([o0, o1, seq] ++ A ++ (c :: S) ++ (s0 :: s1 :: Z)) =
      .ok [s0, s1] := by
  rw [auxLen_eq] at hc
  simp only [ok.injEq] at hc
  rw [C90_beacon _ _ _ _ _ _ _ hd hs ha hp]
  rw [List.length_cons] at hS
  have : S.length = micOctets c := by omega
  rw [if_pos (by simp; omega), ← this, List.drop_left]
  rfl

/-- ... and for every security control octet for which the length is wrong there are beacons of which it
is not. -/
theorem C90_beacon_wrong (o0 o1 seq c : Byte) (A : Bytes)
    (hd : (decodeFc o0 o1).dstMode ≠ .unknown) (hs : (decodeFc o0 o1).srcMode ≠ .unknown)
    (ha : ∃ p, fcPans o0 o1 = some p ∧ A.length = fcAddrLen o0 o1 p)
    (hp : (decodeFc o0 o1).securityEnabled = true)
    (hc : ∀ l, AuxSecHeader.len (c :: l) ≠ .ok (securityHeaderLen c)) :
    ∃ s0 s1 S Z, (c :: S).length = securityHeaderLen c ∧
      Beacon.superframeSpecification ([o0, o1, seq] ++ A ++ (c :: S) ++ (s0 :: s1 :: Z)) ≠
        .ok [s0, s1] := by
  refine ⟨1, 1, List.replicate (securityHeaderLen c - 1) 0, [], ?_, ?_⟩
  · rw [List.length_cons, List.length_replicate]
    have : 1 ≤ securityHeaderLen c := by unfold securityHeaderLen; omega
    omega
  · rw [C90_beacon _ _ _ _ _ _ _ hd hs ha hp]
    replace hc := hc []
    rw [ne_eq, C90_exact_partial] at hc
    clear hd hs ha hp
    revert c
    decide +kernel

/-- A beacon with security level 5, a frame counter and no key identifier is read right; one with level
6 is not. -/
example : Beacon.superframeSpecification
      [0x08, 0x80, 7, 0xcd, 0xab, 0x34, 0x12, 5, 1, 0, 0, 0, 0xff, 0xcf, 0, 0] = .ok [0xff, 0xcf] ∧
    Beacon.superframeSpecification
      [0x08, 0x80, 7, 0xcd, 0xab, 0x34, 0x12, 6, 1, 0, 0, 0, 0xff, 0xcf, 0, 0, 9, 8] = .ok [9, 8] :=
  ⟨C90_beacon_right 0x08 0x80 7 5 0xff 0xcf [0xcd, 0xab, 0x34, 0x12] [1, 0, 0, 0] [0, 0] (by decide)
      (by decide) ⟨⟨false, true⟩, by decide, by decide⟩ (by decide) (by decide) (by decide),
    C90_beacon 0x08 0x80 7 6 [0xcd, 0xab, 0x34, 0x12] [1, 0, 0, 0] [0xff, 0xcf, 0, 0, 9, 8] (by decide)
      (by decide) ⟨⟨false, true⟩, by decide, by decide⟩ (by decide)⟩

example := C90_beacon_wrong 0x08 0x80 7 6 [0xcd, 0xab, 0x34, 0x12] (by decide) (by decide)
  ⟨⟨false, true⟩, by decide, by decide⟩ (by decide) (fun l => by
    rw [ne_eq, C90_exact_partial]; decide)

/-- What it means for a secured enhanced acknowledgment without information elements: the payload starts
behind as many octets as the integrity code has. -/
theorem C90_ack (o0 o1 : Byte) (seq : Option Byte) (dp sp : Option (BitVec 16))
    (d s : Address) (c : Byte) (S X : Bytes)
    (hsec : (decodeFc o0 o1).securityEnabled = true)
    (hseq : seq.isSome = !(decodeFc o0 o1).seqNoSuppression)
    (hp : fcPans o0 o1 = some ⟨dp.isSome, sp.isSome⟩)
    (hd : d.mode = (decodeFc o0 o1).dstMode) (hs : s.mode = (decodeFc o0 o1).srcMode)
    (hi : (decodeFc o0 o1).iePresent = false) (h4 : c.toNat % 8 ≠ 4)
    (hl : micOctets c ≤ (S ++ X).length) :
    EnhancedAck.payload ([o0, o1] ++ seq.toList ++ Spec.addressing dp d sp s ++ (c :: S) ++ X) =
      .ok (some ((S ++ X).drop (micOctets c))) := by
  have ht : ∃ a e, levelTable (c.toNat % 8) = some (micOctets c, a, e) := by
    have : ∀ c : Byte, c.toNat % 8 ≠ 4 → ∃ a e, levelTable (c.toNat % 8) = some (micOctets c, a, e) := by
      decide
    exact this c h4
  obtain ⟨a, e, ht⟩ := ht
  have := (C13_secured_partial o0 o1 seq dp sp d s c ((S ++ X).take (micOctets c))
    ((S ++ X).drop (micOctets c)) (micOctets c) a e hsec hseq hp hd hs ht (by
      rw [List.length_take]; omega)).2.2.1 hi
  rw [← this.2]
  congr 1
  simp only [List.append_assoc, List.cons_append, List.take_append_drop]

/-- The payload of an acknowledgment with level 6 starts four octets late. -/
example : EnhancedAck.payload [0x0a, 0x28, 0x37, 0xcd, 0xab, 0x34, 0x12, 6, 1, 0, 0, 0, 9, 8, 7, 6, 5] =
    .ok (some [5]) :=
  C90_ack 0x0a 0x28 (some 0x37) (some 0xabcd) none (.short ⟨[0x12, 0x34], rfl⟩) .absent 6 [1, 0, 0, 0]
    [9, 8, 7, 6, 5] (by decide) (by decide) (by decide) (by decide) (by decide) (by decide) (by decide)
    (by decide)

end Dot15d4.Props
