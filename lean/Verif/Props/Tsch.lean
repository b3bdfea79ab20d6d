import Verif.Lemmas.Tsch
import Verif.Lemmas.Addressing
import Verif.Lemmas.Bits

/-!
# C20-C23: contents of the TSCH related information elements
-/

namespace Dot15d4.Props
open Out

/-! ## C20: time correction -/

theorem wTime_eq (w : BitVec 16) :
    TimeCorrection.wTime w = (w.setWidth 12).signExtend 64 := by
  apply BitVec.eq_of_getLsbD_eq
  intro i hi
  simp only [TimeCorrection.wTime, BitVec.getLsbD_signExtend, BitVec.getLsbD_sshiftRight,
    BitVec.getLsbD_shiftLeft, BitVec.getLsbD_and, BitVec.getLsbD_setWidth,
    BitVec.msb_eq_getLsbD_last]
  interval_cases i <;> simp [-BitVec.getLsbD_eq_getElem]

theorem wSetTime_low (t : I64) :
    (TimeCorrection.wSetTime t).setWidth 12 = t.setWidth 12 := by
  apply BitVec.eq_of_getLsbD_eq
  intro i hi
  simp only [TimeCorrection.wSetTime, BitVec.getLsbD_sshiftRight,
    BitVec.getLsbD_shiftLeft, BitVec.getLsbD_and, BitVec.getLsbD_setWidth,
    BitVec.msb_eq_getLsbD_last]
  interval_cases i <;> simp [-BitVec.getLsbD_eq_getElem]

theorem signExtend12 (t : I64) (h : -2048 ≤ t.toInt ∧ t.toInt ≤ 2047) :
    (t.setWidth 12).signExtend 64 = t := by
  apply BitVec.eq_of_toInt_eq
  rw [BitVec.toInt_signExtend_of_le (by decide), BitVec.toInt_setWidth]
  have h2 : (t.toNat : Int) = if 0 ≤ t.toInt then t.toInt else t.toInt + 2^64 := by
    have := t.isLt
    rw [BitVec.toInt_eq_toNat_cond]; split <;> split <;> omega
  rw [h2]
  split
  · rw [Int.bmod_def]; split <;> omega
  · rw [Int.bmod_def]; split <;> omega

/-- Reading a time correction from any two (or more) bytes never panics and returns a value of
twelve signed bits. -/
theorem C20_reader_range (d : Bytes) (h : 2 ≤ d.length) :
    TimeCorrection.new d = .ok d ∧
    ∃ t n, TimeCorrection.timeCorrection d = .ok t ∧ TimeCorrection.nack d = .ok n ∧
      -2048 ≤ t.asUs.toInt ∧ t.asUs.toInt ≤ 2047 := by
  obtain ⟨b0, b1, l, rfl⟩ := exists_cons2 h
  refine ⟨by simp [TimeCorrection.new], .fromUs (TimeCorrection.wTime (u16le b0 b1)),
    (u16le b0 b1 &&& 0x8000#16) != 0#16, by simp [TimeCorrection.timeCorrection],
    by simp [TimeCorrection.nack], ?_⟩
  simp only [Duration.fromUs, Duration.asUs, wTime_eq]
  rw [BitVec.toInt_signExtend_of_le (by decide)]
  have h1 := BitVec.le_toInt ((u16le b0 b1).setWidth 12)
  have h2 := BitVec.toInt_lt (x := (u16le b0 b1).setWidth 12)
  omega

example : TimeCorrection.timeCorrection [0xff, 0x8f] = .ok (.fromUs (-1)) ∧
    TimeCorrection.nack [0xff, 0x8f] = .ok true := by decide

/-- Shorter contents are refused. -/
theorem C20_short (d : Bytes) (h : d.length < 2) : TimeCorrection.new d = .err := by
  simp [TimeCorrection.new, Nat.not_le.mpr h]

/-- Writing a correction in range and then a nack flag, and reading both back. -/
theorem C20_roundtrip (d : Bytes) (h : 2 ≤ d.length) (t : Duration) (n : Bool)
    (ht : -2048 ≤ t.asUs.toInt ∧ t.asUs.toInt ≤ 2047) :
    ∃ d' d'', TimeCorrection.setTimeCorrection d t = .ok d' ∧
      TimeCorrection.setNack d' n = .ok d'' ∧
      TimeCorrection.timeCorrection d'' = .ok t ∧ TimeCorrection.nack d'' = .ok n ∧
      d''.length = d.length ∧ d''.drop 2 = d.drop 2 := by
  obtain ⟨b0, b1, l, rfl⟩ := exists_cons2 h
  let f := fun w : BitVec 16 => if n then w ||| 0x8000#16 else w &&& 0x7fff#16
  refine ⟨u16bytes (TimeCorrection.wSetTime t.asUs) ++ l,
    u16bytes (f (TimeCorrection.wSetTime t.asUs)) ++ l,
    by simp [TimeCorrection.setTimeCorrection], ?_, ?_, ?_, by simp [u16bytes], by simp [u16bytes]⟩
  · rw [TimeCorrection.setNack, updU16_u16bytes]
  · have e : (f (TimeCorrection.wSetTime t.asUs)).setWidth 12 =
        (TimeCorrection.wSetTime t.asUs).setWidth 12 := by
      apply BitVec.eq_of_getLsbD_eq
      intro i hi
      cases n <;> simp only [f, BitVec.getLsbD_setWidth, if_true, if_false, Bool.false_eq_true,
        BitVec.getLsbD_and, BitVec.getLsbD_or] <;> interval_cases i <;>
        simp [-BitVec.getLsbD_eq_getElem]
    simp only [TimeCorrection.timeCorrection, readU16_u16bytes, bind_ok, wTime_eq, e, wSetTime_low,
      signExtend12 _ ht]
    rfl
  · have hz : (TimeCorrection.wSetTime t.asUs) &&& 0x8000#16 = 0#16 := by
      apply BitVec.eq_of_getLsbD_eq
      intro i hi
      simp only [TimeCorrection.wSetTime, BitVec.getLsbD_and]
      interval_cases i <;> simp [-BitVec.getLsbD_eq_getElem]
    simp only [TimeCorrection.nack, readU16_u16bytes, bind_ok, f]
    cases n with
    | true =>
      have e : (TimeCorrection.wSetTime t.asUs ||| 0x8000#16) &&& 0x8000#16 = 0x8000#16 := by
        rw [BitVec.and_or_distrib_right, hz]; decide
      simp only [if_true]
      rw [e]; rfl
    | false =>
      simp only [Bool.false_eq_true, if_false]
      rw [BitVec.and_assoc, show (0x7fff#16 &&& 0x8000#16) = 0#16 by decide, BitVec.and_zero]; rfl

/-- Outside the range the correction is silently changed, by a multiple of 4096 us: whatever is
written, what is read back is the value between -2048 and 2047 that differs from it by such a
multiple. -/
theorem C20_out_of_range (d : Bytes) (h : 2 ≤ d.length) (t : Duration) :
    ∃ d' r, TimeCorrection.setTimeCorrection d t = .ok d' ∧
      TimeCorrection.timeCorrection d' = .ok r ∧
      r.asUs.toInt = (t.asUs.toInt + 2048) % 4096 - 2048 := by
  obtain ⟨b0, b1, l, rfl⟩ := exists_cons2 h
  refine ⟨u16bytes (TimeCorrection.wSetTime t.asUs) ++ l,
    .fromUs (TimeCorrection.wTime (TimeCorrection.wSetTime t.asUs)),
    by simp [TimeCorrection.setTimeCorrection], by simp [TimeCorrection.timeCorrection], ?_⟩
  simp only [Duration.fromUs, Duration.asUs, wTime_eq, wSetTime_low]
  rw [BitVec.toInt_signExtend_of_le (by decide), BitVec.toInt_setWidth]
  have h2 : (t.us.toNat : Int) = if 0 ≤ t.us.toInt then t.us.toInt else t.us.toInt + 2^64 := by
    have := t.us.isLt
    rw [BitVec.toInt_eq_toNat_cond]; split <;> split <;> omega
  rw [h2]
  split
  · rw [Int.bmod_def]; split <;> omega
  · rw [Int.bmod_def]; split <;> omega

/-- 2048 us is read back as -2048 us, 5000 us as 904 us. -/
example : TimeCorrection.timeCorrection [0x00, 0x08] = .ok (.fromUs (-2048)) ∧
    TimeCorrection.setTimeCorrection [0, 0] (.fromUs 2048) = .ok [0x00, 0x08] ∧
    ((5000 : Int) + 2048) % 4096 - 2048 = 904 := by decide

/-- The order of the setters matters: writing the correction clears the nack flag, whatever it
was. -/
theorem C20_correction_clears_nack (d : Bytes) (h : 2 ≤ d.length) (t : Duration) (n : Bool) :
    ∃ d' d'', TimeCorrection.setNack d n = .ok d' ∧
      TimeCorrection.setTimeCorrection d' t = .ok d'' ∧
      TimeCorrection.nack d' = .ok n ∧ TimeCorrection.nack d'' = .ok false := by
  obtain ⟨b0, b1, l, rfl⟩ := exists_cons2 h
  refine ⟨_, u16bytes (TimeCorrection.wSetTime t.asUs) ++ l, updU16_cons .., ?_, ?_, ?_⟩
  · rw [TimeCorrection.setTimeCorrection, updU16_u16bytes]
  · simp only [TimeCorrection.nack, readU16_u16bytes, bind_ok]
    cases n with
    | true =>
      simp only [if_true]
      rw [show (u16le b0 b1 ||| 0x8000#16) &&& 0x8000#16 = 0x8000#16 by
        apply BitVec.eq_of_getLsbD_eq
        intro i hi
        simp only [BitVec.getLsbD_and, BitVec.getLsbD_or]
        cases (0x8000#16).getLsbD i <;> simp]
      rfl
    | false =>
      simp only [Bool.false_eq_true, if_false]
      rw [BitVec.and_assoc, show (0x7fff#16 &&& 0x8000#16) = 0#16 by decide, BitVec.and_zero]; rfl
  · have hz : (TimeCorrection.wSetTime t.asUs) &&& 0x8000#16 = 0#16 := by
      apply BitVec.eq_of_getLsbD_eq
      intro i hi
      simp only [TimeCorrection.wSetTime, BitVec.getLsbD_and]
      interval_cases i <;> simp [-BitVec.getLsbD_eq_getElem]
    simp only [TimeCorrection.nack, readU16_u16bytes, bind_ok]
    rw [hz]; rfl


example : ∃ d' d'', TimeCorrection.setTimeCorrection [0xff, 0xff, 7] (.fromUs (-31)) = .ok d' ∧
    TimeCorrection.setNack d' true = .ok d'' ∧ d'' = [0xe1, 0x8f, 7] := ⟨_, _, rfl, rfl, by decide⟩

/-! ## C21: TSCH synchronization -/

theorem asn_eq (b0 b1 b2 b3 b4 : Byte) :
    (b0.setWidth 64 + (b1.setWidth 64 <<< 8) + (b2.setWidth 64 <<< 16)
      + (b3.setWidth 64 <<< 24) + (b4.setWidth 64 <<< 32) : BitVec 64).toNat =
    b0.toNat + 2^8 * b1.toNat + 2^16 * b2.toNat + 2^24 * b3.toNat + 2^32 * b4.toNat := by
  have := b0.isLt; have := b1.isLt; have := b2.isLt; have := b3.isLt; have := b4.isLt
  simp only [BitVec.toNat_add, BitVec.toNat_setWidth, BitVec.toNat_shiftLeft, Nat.shiftLeft_eq]
  omega

/-- Any six bytes are accepted, and read as a 40-bit little-endian slot number followed by the
join metric. -/
theorem C21_read (b0 b1 b2 b3 b4 b5 : Byte) (l : Bytes) :
    TschSynchronization.new (b0 :: b1 :: b2 :: b3 :: b4 :: b5 :: l) =
        .ok (b0 :: b1 :: b2 :: b3 :: b4 :: b5 :: l) ∧
    TschSynchronization.joinMetric (b0 :: b1 :: b2 :: b3 :: b4 :: b5 :: l) = .ok b5 ∧
    ∃ asn, TschSynchronization.absoluteSlotNumber (b0 :: b1 :: b2 :: b3 :: b4 :: b5 :: l) = .ok asn ∧
      asn.toNat = b0.toNat + 2^8 * b1.toNat + 2^16 * b2.toNat + 2^24 * b3.toNat + 2^32 * b4.toNat := by
  refine ⟨by simp [TschSynchronization.new], by simp [TschSynchronization.joinMetric], ?_⟩
  exact ⟨_, by simp [TschSynchronization.absoluteSlotNumber], asn_eq b0 b1 b2 b3 b4⟩

/-- Writing a slot number and a join metric and reading them back returns the join metric and the
low 40 bits of the slot number; bytes after the sixth are untouched. -/
theorem C21_roundtrip (d : Bytes) (h : 6 ≤ d.length) (asn : BitVec 64) (m : Byte) :
    ∃ d' d'', TschSynchronization.setAbsoluteSlotNumber d asn = .ok d' ∧
      TschSynchronization.setJoinMetric d' m = .ok d'' ∧
      TschSynchronization.new d'' = .ok d'' ∧
      (∃ r, TschSynchronization.absoluteSlotNumber d'' = .ok r ∧ r.toNat = asn.toNat % 2^40) ∧
      TschSynchronization.joinMetric d'' = .ok m ∧ d''.drop 6 = d.drop 6 := by
  match d, h with
  | x0 :: x1 :: x2 :: x3 :: x4 :: x5 :: l, _ =>
    refine ⟨((asn &&& 0xff#64).setWidth 8) :: (((asn >>> 8) &&& 0xff#64).setWidth 8) ::
      (((asn >>> 16) &&& 0xff#64).setWidth 8) :: (((asn >>> 24) &&& 0xff#64).setWidth 8) ::
      (((asn >>> 32) &&& 0xff#64).setWidth 8) :: x5 :: l,
      ((asn &&& 0xff#64).setWidth 8) :: (((asn >>> 8) &&& 0xff#64).setWidth 8) ::
      (((asn >>> 16) &&& 0xff#64).setWidth 8) :: (((asn >>> 24) &&& 0xff#64).setWidth 8) ::
      (((asn >>> 32) &&& 0xff#64).setWidth 8) :: m :: l,
      by simp [TschSynchronization.setAbsoluteSlotNumber, setIdx],
      by simp [TschSynchronization.setJoinMetric, setIdx], ?_⟩
    obtain ⟨h1, h2, r, h3, h4⟩ := C21_read ((asn &&& 0xff#64).setWidth 8)
      (((asn >>> 8) &&& 0xff#64).setWidth 8) (((asn >>> 16) &&& 0xff#64).setWidth 8)
      (((asn >>> 24) &&& 0xff#64).setWidth 8) (((asn >>> 32) &&& 0xff#64).setWidth 8) m l
    refine ⟨h1, ⟨r, h3, ?_⟩, h2, by simp⟩
    rw [h4]
    simp only [BitVec.toNat_setWidth, BitVec.toNat_and, BitVec.toNat_ushiftRight, Nat.shiftRight_eq_div_pow,
      BitVec.toNat_ofNat]
    have e : ∀ n : Nat, n &&& (255 % 2^64) = n % 256 := fun n =>
      Nat.and_two_pow_sub_one_eq_mod n 8
    simp only [e]
    have := asn.isLt
    omega

/-- In particular every slot number below 2^40 is read back as it was written. -/
theorem C21_roundtrip_in_range (d : Bytes) (h : 6 ≤ d.length) (asn : BitVec 64) (m : Byte)
    (ha : asn.toNat < 2^40) :
    ∃ d' d'', TschSynchronization.setAbsoluteSlotNumber d asn = .ok d' ∧
      TschSynchronization.setJoinMetric d' m = .ok d'' ∧
      TschSynchronization.absoluteSlotNumber d'' = .ok asn ∧
      TschSynchronization.joinMetric d'' = .ok m := by
  obtain ⟨d', d'', h1, h2, -, ⟨r, h3, h4⟩, h5, -⟩ := C21_roundtrip d h asn m
  refine ⟨d', d'', h1, h2, ?_, h5⟩
  rw [h3]; congr 1
  apply BitVec.eq_of_toNat_eq
  rw [h4, Nat.mod_eq_of_lt ha]

example : ∃ d', TschSynchronization.setAbsoluteSlotNumber [0,0,0,0,0,9] 0xfedcba9876#64 = .ok d' ∧
    d' = [0x76, 0x98, 0xba, 0xdc, 0xfe, 9] := ⟨_, rfl, by decide⟩

/-! ## C22: TSCH timeslot -/

theorem putDur_append (P R : Bytes) (i : Nat) (t : Duration) (hi : P.length = i)
    (h : 2 ≤ R.length) :
    TschTimeslot.putDur i t (P ++ R) =
      .ok ((P ++ u16bytes (t.asUs.setWidth 16)) ++ R.drop 2) := by
  obtain ⟨x, y, l, rfl⟩ := exists_cons2 h
  subst hi
  have := modifyAt_append P [x, y] (u16bytes (t.asUs.setWidth 16)) l
    (fun s => copyFromSlice s (u16bytes (t.asUs.setWidth 16))) (by simp [copyFromSlice])
  simpa [TschTimeslot.putDur] using this

theorem putDur24_append (P R : Bytes) (i : Nat) (w : BitVec 32) (hi : P.length = i)
    (h : 3 ≤ R.length) :
    TschTimeslot.putDur24 i w (P ++ R) = .ok ((P ++ (u32bytes w).take 3) ++ R.drop 3) := by
  match R, h with
  | x :: y :: z :: l, _ =>
    subst hi
    have := modifyAt_append P [x, y, z] ((u32bytes w).take 3) l
      (fun s => copyFromSlice s ((u32bytes w).take 3)) (by simp [copyFromSlice, u32bytes])
    simpa [TschTimeslot.putDur24] using this

@[simp] theorem durAt_zero (w : BitVec 16) (l : Bytes) :
    TschTimeslot.durAt (u16bytes w ++ l) 0 = .ok (.fromUs (w.setWidth 64)) := by
  simp [TschTimeslot.durAt, sliceFrom, sliceTo, u16bytes]

@[simp] theorem durAt_cons (x : Byte) (l : Bytes) (i : Nat) :
    TschTimeslot.durAt ([x] ++ l) (i+1) = TschTimeslot.durAt l i := by
  simp [TschTimeslot.durAt, sliceFrom]

@[simp] theorem durAt_u16 (w : BitVec 16) (l : Bytes) (i : Nat) :
    TschTimeslot.durAt (u16bytes w ++ l) (i+2) = TschTimeslot.durAt l i := by
  simp [TschTimeslot.durAt, sliceFrom, u16bytes]

@[simp] theorem dur24At_cons (x : Byte) (l : Bytes) (i : Nat) :
    TschTimeslot.dur24At ([x] ++ l) (i+1) = TschTimeslot.dur24At l i := by
  simp [TschTimeslot.dur24At, sliceFrom]

@[simp] theorem dur24At_u16 (w : BitVec 16) (l : Bytes) (i : Nat) :
    TschTimeslot.dur24At (u16bytes w ++ l) (i+2) = TschTimeslot.dur24At l i := by
  simp [TschTimeslot.dur24At, sliceFrom, u16bytes]

@[simp] theorem dur24At_u24 (w : BitVec 32) (l : Bytes) (i : Nat) :
    TschTimeslot.dur24At ((u32bytes w).take 3 ++ l) (i+3) = TschTimeslot.dur24At l i := by
  simp [TschTimeslot.dur24At, sliceFrom, u32bytes]

theorem dur24At_zero (w : BitVec 32) (l : Bytes) (hw : w.toNat < 2^24) :
    TschTimeslot.dur24At ((u32bytes w).take 3 ++ l) 0 = .ok (.fromUs (w.setWidth 64)) := by
  simp only [TschTimeslot.dur24At, sliceFrom, sliceTo, u32bytes]
  simp
  congr 2
  apply BitVec.eq_of_getLsbD_eq
  intro i hi
  have hz : ∀ j, 24 ≤ j → w.getLsbD j = false := fun j hj => by
    rw [BitVec.getLsbD, Nat.testBit_lt_two_pow]
    exact Nat.lt_of_lt_of_le hw (Nat.pow_le_pow_right (by decide) hj)
  simp only [u32le, BitVec.getLsbD_or, BitVec.getLsbD_setWidth, BitVec.getLsbD_shiftLeft,
    BitVec.getLsbD_ushiftRight]
  by_cases h1 : i < 8
  · simp [h1, show i < 64 by omega, show i < 32 by omega, show i < 16 by omega, show i < 24 by omega]
  · by_cases h2 : i < 16
    · simp [h1, h2, show i < 64 by omega, show i < 32 by omega, show i < 24 by omega,
        show 8 + (i - 8) = i by omega, show i - 8 < 8 by omega, show i - 8 < 32 by omega]
    · by_cases h3 : i < 24
      · simp [h1, h2, h3, show i < 64 by omega, show i < 32 by omega,
          show 16 + (i - 16) = i by omega, show i - 16 < 8 by omega, show i - 16 < 32 by omega, show ¬ i - 8 < 8 by omega]
      · simp [hz i (by omega), h1, h2, h3, show ¬ i - 8 < 8 by omega, show ¬ i - 16 < 8 by omega]

/-- The value of a duration fits an unsigned field of `n` bits. -/
def Fits (n : Nat) (t : Duration) : Prop := 0 ≤ t.asUs.toInt ∧ t.asUs.toInt < 2 ^ n

theorem Fits.toNat {n : Nat} {t : Duration} (h : Fits n t) : t.asUs.toNat < 2 ^ n := by
  obtain ⟨h1, h2⟩ := h
  have := t.asUs.isLt
  rw [BitVec.toInt_eq_toNat_cond] at h1 h2
  have e : ((2 ^ n : Nat) : Int) = (2:Int) ^ n := by push_cast; rfl
  split at h1 <;> split at h2 <;> omega

theorem Fits.u16 {t : Duration} (h : Fits 16 t) :
    Duration.fromUs ((t.asUs.setWidth 16).setWidth 64) = t := by
  have := h.toNat
  obtain ⟨t⟩ := t
  simp only [Duration.fromUs, Duration.asUs] at *
  congr 1
  apply BitVec.eq_of_toNat_eq
  simp only [BitVec.toNat_setWidth]
  omega

theorem Fits.u24 {t : Duration} (h : Fits 24 t) :
    (t.asUs.setWidth 32).toNat < 2^24 ∧
    Duration.fromUs ((t.asUs.setWidth 32).setWidth 64) = t := by
  have := h.toNat
  obtain ⟨t⟩ := t
  simp only [Duration.fromUs, Duration.asUs] at *
  constructor
  · simp only [BitVec.toNat_setWidth]; omega
  · congr 1
    apply BitVec.eq_of_toNat_eq
    simp only [BitVec.toNat_setWidth]
    omega

/-- All twelve durations fit the fields of the timeslot element. -/
def TimingsFit (t : TschTimeslotTimings) : Prop :=
  Fits 16 t.ccaOffset ∧ Fits 16 t.cca ∧ Fits 16 t.txOffset ∧ Fits 16 t.rxOffset ∧
  Fits 16 t.rxAckDelay ∧ Fits 16 t.txAckDelay ∧ Fits 16 t.rxWait ∧ Fits 16 t.ackWait ∧
  Fits 16 t.rxTx ∧ Fits 16 t.maxAck ∧ Fits 24 t.maxTx ∧ Fits 24 t.timeslotLength

/-- Size of the encoded timings: the two last fields take three bytes each if one of them does not
fit two. -/
def timingsSize (t : TschTimeslotTimings) : Nat :=
  if t.maxTx.asUs.toInt > 65535 ∨ t.timeslotLength.asUs.toInt > 65535 then 27 else 25

theorem Fits.toInt {n : Nat} {t : Duration} (h : Fits n t) : t.asUs.toInt = t.asUs.toNat := by
  obtain ⟨h1, h2⟩ := h
  have := t.asUs.isLt
  rw [BitVec.toInt_eq_toNat_cond] at *
  split at h1 <;> split at h2 <;> omega

theorem wide_eq {t : TschTimeslotTimings} (h : TimingsFit t) :
    TschTimeslot.wide t =
      decide (t.maxTx.asUs.toInt > 65535 ∨ t.timeslotLength.asUs.toInt > 65535) := by
  obtain ⟨-, -, -, -, -, -, -, -, -, -, h1, h2⟩ := h
  have e1 := h1.toInt; have e2 := h2.toInt
  have l1 := h1.toNat; have l2 := h2.toNat
  simp only [TschTimeslot.wide, BitVec.toNat_setWidth, ← Bool.decide_or]
  congr 1
  apply propext
  omega

/-- The layout of the timeslot element (IEEE 802.15.4-2020, 7.4.4.4): the id followed by the
timings as little-endian numbers of microseconds. -/
def timingsBytes (t : TschTimeslotTimings) : Bytes :=
  [t.id] ++ u16bytes (t.ccaOffset.asUs.setWidth 16) ++ u16bytes (t.cca.asUs.setWidth 16) ++
  u16bytes (t.txOffset.asUs.setWidth 16) ++ u16bytes (t.rxOffset.asUs.setWidth 16) ++
  u16bytes (t.rxAckDelay.asUs.setWidth 16) ++ u16bytes (t.txAckDelay.asUs.setWidth 16) ++
  u16bytes (t.rxWait.asUs.setWidth 16) ++ u16bytes (t.ackWait.asUs.setWidth 16) ++
  u16bytes (t.rxTx.asUs.setWidth 16) ++ u16bytes (t.maxAck.asUs.setWidth 16) ++
  if t.maxTx.asUs.toInt > 65535 ∨ t.timeslotLength.asUs.toInt > 65535 then
    (u32bytes (t.maxTx.asUs.setWidth 32)).take 3 ++
      (u32bytes (t.timeslotLength.asUs.setWidth 32)).take 3
  else u16bytes (t.maxTx.asUs.setWidth 16) ++ u16bytes (t.timeslotLength.asUs.setWidth 16)

/-- Writing timings that fit produces exactly the standard's layout (bytes after it are kept). -/
theorem C22_write (d : Bytes) (t : TschTimeslotTimings) (hf : TimingsFit t)
    (hl : timingsSize t ≤ d.length) :
    TschTimeslot.setTimeslotTimings d t =
      .ok (timingsBytes t ++ d.drop (timingsSize t)) := by
  have hw := wide_eq hf
  match d, hl with
  | [], hl => simp only [timingsSize] at hl; split at hl <;> simp at hl
  | x :: d, hl =>
  have hl' : timingsSize t ≤ d.length + 1 := by simpa using hl
  have h0 : 24 ≤ d.length := by simp only [timingsSize] at hl'; split at hl' <;> omega
  have s0 : setIdx (x :: d) 0 t.id = .ok ([t.id] ++ d) := by simp [setIdx]
  simp only [TschTimeslot.setTimeslotTimings, s0, bind_ok]
  iterate 10 (rw [putDur_append]; rotate_left; · simp
              · (try simp); omega
              simp only [bind_ok])
  rw [hw]
  by_cases hc : t.maxTx.asUs.toInt > 65535 ∨ t.timeslotLength.asUs.toInt > 65535
  · have h26 : 26 ≤ d.length := by simp only [timingsSize, if_pos hc] at hl'; omega
    rw [if_pos (by simpa using hc)]
    rw [putDur24_append]; rotate_left; · simp
    · simp; omega
    simp only [bind_ok]
    rw [putDur24_append]; rotate_left; · simp [u32bytes]
    · simp; omega
    simp [timingsBytes, timingsSize, hc]
  · rw [if_neg (by simpa using hc)]
    rw [putDur_append]; rotate_left; · simp
    · simp; omega
    simp only [bind_ok]
    rw [putDur_append]; rotate_left; · simp
    · simp; omega
    simp [timingsBytes, timingsSize, hc]

/-- Timings with a nonzero id whose fields fit their widths are read back as written, and the
written content is accepted. -/
theorem C22_roundtrip (d : Bytes) (t : TschTimeslotTimings) (hid : t.id ≠ 0) (hf : TimingsFit t)
    (hl : d.length = timingsSize t) :
    ∃ d', TschTimeslot.setTimeslotTimings d t = .ok d' ∧ d'.length = d.length ∧
      TschTimeslot.new d' = .ok d' ∧ TschTimeslot.hasTimeslotTimings d' = true ∧
      TschTimeslot.timeslotTimings d' = .ok t := by
  refine ⟨timingsBytes t, ?_, ?_, ?_⟩
  · rw [C22_write d t hf (by omega), ← hl]; simp
  · rw [hl]; simp only [timingsBytes, timingsSize]; split <;> simp [u32bytes]
  have hlen : (timingsBytes t).length = timingsSize t := by
    simp only [timingsBytes, timingsSize]; split <;> simp [u32bytes]
  have hidd : TschTimeslot.id (timingsBytes t) = .ok t.id := by
    simp [TschTimeslot.id, timingsBytes]
  have h25 : 25 ≤ timingsSize t := by simp only [timingsSize]; split <;> omega
  refine ⟨?_, ?_, ?_⟩
  · simp only [TschTimeslot.new, hidd, bind_ok, hid, hlen]
    simp [h25, show ¬ timingsSize t < 1 by omega]
  · simp only [TschTimeslot.hasTimeslotTimings, hlen]; simp; omega
  have hw := hf
  obtain ⟨f1, f2, f3, f4, f5, f6, f7, f8, f9, f10, f11, f12⟩ := hf
  simp only [TschTimeslot.timeslotTimings, hidd, bind_ok, hid, if_false, hlen]
  by_cases hc : t.maxTx.asUs.toInt > 65535 ∨ t.timeslotLength.asUs.toInt > 65535
  · have hs : timingsSize t = 27 := by simp [timingsSize, hc]
    have e : timingsBytes t = [t.id] ++ (u16bytes (t.ccaOffset.asUs.setWidth 16) ++ (u16bytes (t.cca.asUs.setWidth 16) ++
      (u16bytes (t.txOffset.asUs.setWidth 16) ++ (u16bytes (t.rxOffset.asUs.setWidth 16) ++
      (u16bytes (t.rxAckDelay.asUs.setWidth 16) ++ (u16bytes (t.txAckDelay.asUs.setWidth 16) ++
      (u16bytes (t.rxWait.asUs.setWidth 16) ++ (u16bytes (t.ackWait.asUs.setWidth 16) ++
      (u16bytes (t.rxTx.asUs.setWidth 16) ++ (u16bytes (t.maxAck.asUs.setWidth 16) ++
      ((u32bytes (t.maxTx.asUs.setWidth 32)).take 3 ++
        ((u32bytes (t.timeslotLength.asUs.setWidth 32)).take 3 ++ [])))))))))))) := by
      simp [timingsBytes, hc]
    rw [e]
    simp only [hs, durAt_cons, durAt_u16, durAt_zero, dur24At_cons, dur24At_u16, dur24At_u24,
      dur24At_zero _ _ f11.u24.1, dur24At_zero _ _ f12.u24.1, bind_ok, f1.u16, f2.u16, f3.u16, f4.u16,
      f5.u16, f6.u16, f7.u16, f8.u16, f9.u16, f10.u16, f11.u24.2, f12.u24.2, Nat.reduceEqDiff,
      if_false]
  · have hs : timingsSize t = 25 := by simp [timingsSize, hc]
    have e : timingsBytes t = [t.id] ++ (u16bytes (t.ccaOffset.asUs.setWidth 16) ++ (u16bytes (t.cca.asUs.setWidth 16) ++
      (u16bytes (t.txOffset.asUs.setWidth 16) ++ (u16bytes (t.rxOffset.asUs.setWidth 16) ++
      (u16bytes (t.rxAckDelay.asUs.setWidth 16) ++ (u16bytes (t.txAckDelay.asUs.setWidth 16) ++
      (u16bytes (t.rxWait.asUs.setWidth 16) ++ (u16bytes (t.ackWait.asUs.setWidth 16) ++
      (u16bytes (t.rxTx.asUs.setWidth 16) ++ (u16bytes (t.maxAck.asUs.setWidth 16) ++
      (u16bytes (t.maxTx.asUs.setWidth 16) ++
        (u16bytes (t.timeslotLength.asUs.setWidth 16) ++ [])))))))))))) := by
      simp [timingsBytes, hc]
    have g11 : Fits 16 t.maxTx := ⟨f11.1, by omega⟩
    have g12 : Fits 16 t.timeslotLength := ⟨f12.1, by omega⟩
    rw [e]
    simp only [hs, durAt_cons, durAt_u16, durAt_zero, bind_ok, f1.u16, f2.u16, f3.u16, f4.u16,
      f5.u16, f6.u16, f7.u16, f8.u16, f9.u16, f10.u16, g11.u16, g12.u16, if_true]

/-- The identifier 0 selects the default timings, whatever follows. -/
theorem C22_default (d : Bytes) :
    TschTimeslot.new (0 :: d) = .ok (0 :: d) ∧
    TschTimeslot.timeslotTimings (0 :: d) = .ok TschTimeslotTimings.default := by
  simp [TschTimeslot.new, TschTimeslot.id, TschTimeslot.timeslotTimings]

/-- Reading accepted timings panics exactly for nonzero ids and contents of 26 bytes, a length that
`new` lets through. -/
theorem C22_read_panics_iff (d : Bytes) (h : TschTimeslot.new d = .ok d) :
    TschTimeslot.timeslotTimings d = .panic ↔ d.length = 26 ∧ d.head? ≠ some 0 := by
  match d, h with
  | [], h => simp [TschTimeslot.new] at h
  | x :: d, h =>
    simp only [TschTimeslot.new, TschTimeslot.id, idx_zero, bind_ok, TschTimeslot.timeslotTimings] at *
    by_cases hx : x = 0
    · simp [hx]
    · simp only [hx, if_false] at h ⊢
      have h25 : (x :: d).length ≥ 25 := by
        by_contra hc
        simp only [if_neg hc] at h
        split at h <;> cases h
      have hd : ∀ i, i + 2 ≤ (x :: d).length →
          ∃ t, TschTimeslot.durAt (x :: d) i = .ok t := by
        intro i hi
        unfold TschTimeslot.durAt
        rw [sliceFrom_ok (by omega)]; simp only [bind_ok]
        rw [sliceTo_ok (by rw [List.length_drop]; omega)]; simp only [bind_ok]
        rw [idx_lt (by rw [List.length_take, List.length_drop]; omega),
          idx_lt (by rw [List.length_take, List.length_drop]; omega)]
        exact ⟨_, rfl⟩
      have hd3 : ∀ i, i + 3 ≤ (x :: d).length →
          ∃ t, TschTimeslot.dur24At (x :: d) i = .ok t := by
        intro i hi
        unfold TschTimeslot.dur24At
        rw [sliceFrom_ok (by omega)]; simp only [bind_ok]
        rw [sliceTo_ok (by rw [List.length_drop]; omega)]; simp only [bind_ok]
        rw [idx_lt (by rw [List.length_take, List.length_drop]; omega),
          idx_lt (by rw [List.length_take, List.length_drop]; omega),
          idx_lt (by rw [List.length_take, List.length_drop]; omega)]
        exact ⟨_, rfl⟩
      obtain ⟨t1, e1⟩ := hd 1 (by omega)
      obtain ⟨t2, e2⟩ := hd 3 (by omega)
      obtain ⟨t3, e3⟩ := hd 5 (by omega)
      obtain ⟨t4, e4⟩ := hd 7 (by omega)
      obtain ⟨t5, e5⟩ := hd 9 (by omega)
      obtain ⟨t6, e6⟩ := hd 11 (by omega)
      obtain ⟨t7, e7⟩ := hd 13 (by omega)
      obtain ⟨t8, e8⟩ := hd 15 (by omega)
      obtain ⟨t9, e9⟩ := hd 17 (by omega)
      obtain ⟨t10, e10⟩ := hd 19 (by omega)
      simp only [e1, e2, e3, e4, e5, e6, e7, e8, e9, e10, bind_ok]
      by_cases hl : (x :: d).length = 25
      · obtain ⟨t11, e11⟩ := hd 21 (by omega)
        obtain ⟨t12, e12⟩ := hd 23 (by omega)
        simp only [hl, e11, e12, bind_ok, if_true]
        simp
      · obtain ⟨t11, e11⟩ := hd3 21 (by omega)
        simp only [hl, e11, bind_ok, if_false]
        by_cases h26 : (x :: d).length = 26
        · have : TschTimeslot.dur24At (x :: d) 24 = .panic := by
            unfold TschTimeslot.dur24At
            rw [sliceFrom_ok (by omega)]; simp only [bind_ok]
            rw [sliceTo, if_neg (by rw [List.length_drop]; omega)]; rfl
          rw [this]; simp only [bind_panic, h26]; simpa using hx
        · obtain ⟨t12, e12⟩ := hd3 24 (by omega)
          rw [e12]; simp only [bind_ok, h26]; simp

/-- A concrete set of timings with a slot longer than 65535 us. -/
def sampleTimings : TschTimeslotTimings :=
  { TschTimeslotTimings.default with id := 7, timeslotLength := .fromUs 100000 }

example : sampleTimings.id ≠ 0 ∧ TimingsFit sampleTimings ∧ timingsSize sampleTimings = 27 := by
  simp only [TimingsFit, Fits, timingsSize]; decide

/-! ## C23: slotframes and links -/

/-- Reading the fields of one link. -/
def LinkReads (d : Bytes) (l : Spec.Link) : Prop :=
  LinkInformation.timeslot d = .ok l.timeslot ∧
  LinkInformation.channelOffset d = .ok l.channelOffset ∧
  LinkInformation.linkOptions d = .ok l.options

/-- Reading the fields of a descriptor and, with its link iterator run to the end (`fuel` calls),
all links. -/
def SlotframeReads (d : Bytes) (s : Spec.Slotframe) : Prop :=
  SlotframeDescriptor.handle d = .ok s.handle ∧
  SlotframeDescriptor.size d = .ok s.size ∧
  SlotframeDescriptor.links d = .ok (BitVec.ofNat 8 s.links.length) ∧
  ∃ it ls it', SlotframeDescriptor.linkIter d = .ok it ∧
    drain linkNext (it.data.length + 2) it = .ok (ls, it') ∧ linkNext it' = .ok (none, it') ∧
    List.Forall₂ LinkReads ls s.links

theorem encodeLinks_length (ls : List Spec.Link) :
    ((ls.map Spec.Link.encode).flatten).length = 5 * ls.length := by
  induction ls with
  | nil => rfl
  | cons l ls ih => simp [Spec.Link.encode, ih]; omega

theorem linkReads_encode (l : Spec.Link) (h : l.Valid) (r : Bytes) :
    LinkReads (l.encode ++ r) l := by
  refine ⟨?_, ?_, ?_⟩
  · simp [LinkInformation.timeslot, Spec.Link.encode, u16bytes]
  · simp [LinkInformation.channelOffset, Spec.Link.encode, u16bytes, sliceFrom]
  · have : l.options &&& 0x1f#8 = l.options := h
    simp [LinkInformation.linkOptions, Spec.Link.encode, u16bytes, this]

theorem linkTails_encode : ∀ (ls : List Spec.Link), (∀ l ∈ ls, l.Valid) →
    List.Forall₂ LinkReads (linkTails ls.length (ls.map Spec.Link.encode).flatten) ls
  | [], _ => .nil
  | l :: ls, h => by
    simp only [List.length_cons, linkTails, List.map_cons, List.flatten_cons]
    refine .cons (linkReads_encode l (h l (by simp)) _) ?_
    rw [List.drop_append_of_le_length (by simp [Spec.Link.encode]),
      List.drop_eq_nil_of_le (by simp [Spec.Link.encode]), List.nil_append]
    exact linkTails_encode ls fun x hx => h x (by simp [hx])

theorem slotframe_encode_length (s : Spec.Slotframe) :
    s.encode.length = 4 + 5 * s.links.length := by
  simp only [Spec.Slotframe.encode, List.length_append, encodeLinks_length]
  simp

theorem sfLinks_encode (s : Spec.Slotframe) (h : s.links.length < 256) (r : Bytes) :
    sfLinks (s.encode ++ r) = s.links.length := by
  simp [sfLinks, Spec.Slotframe.encode, u16bytes, Nat.mod_eq_of_lt h]

theorem slotframeReads_encode (s : Spec.Slotframe) (h0 : s.links ≠ []) (h : s.links.length < 256)
    (hv : ∀ l ∈ s.links, l.Valid) (r : Bytes) : SlotframeReads (s.encode ++ r) s := by
  have hk := sfLinks_encode s h r
  have hlen := slotframe_encode_length s
  have hlen' : (s.encode ++ r).length = 4 + 5 * s.links.length + r.length := by simp [hlen]
  have hpos : 0 < s.links.length := by cases hs : s.links <;> simp_all
  have hit : SlotframeDescriptor.linkIter (s.encode ++ r) =
      .ok ⟨(s.links.map Spec.Link.encode).flatten, 0, false⟩ := by
    rw [linkIter_eq ⟨by omega, by omega⟩, hk]
    have e : s.encode ++ r = [s.handle] ++ u16bytes s.size ++ [BitVec.ofNat 8 s.links.length] ++
      ((s.links.map Spec.Link.encode).flatten ++ r) := by simp [Spec.Slotframe.encode]
    rw [e]
    congr 2
    rw [List.drop_left' (by simp), List.take_left' (by rw [encodeLinks_length]; omega)]
  refine ⟨by simp [SlotframeDescriptor.handle, Spec.Slotframe.encode],
    by simp [SlotframeDescriptor.size, Spec.Slotframe.encode, u16bytes, sliceFrom],
    by simp [SlotframeDescriptor.links, Spec.Slotframe.encode, u16bytes], ?_⟩
  have hl := encodeLinks_length s.links
  obtain ⟨it', h1, h2⟩ := drain_links (s.links.length - 1)
    ((s.links.map Spec.Link.encode).flatten.length + 2) (s.links.map Spec.Link.encode).flatten 0
    (by omega) (by omega)
  rw [show s.links.length - 1 + 1 = s.links.length by omega] at h1
  exact ⟨_, _, it', hit, h1, h2, by simpa using linkTails_encode s.links hv⟩

theorem sfTails_encode : ∀ (l : List Spec.Slotframe) (r : Bytes),
    (∀ s ∈ l, s.links ≠ [] ∧ s.links.length < 256 ∧ ∀ k ∈ s.links, k.Valid) →
    List.Forall₂ SlotframeReads (sfTails l.length ((l.map Spec.Slotframe.encode).flatten ++ r)) l
  | [], _, _ => .nil
  | s :: l, r, h => by
    obtain ⟨h0, h1, h2⟩ := h s (by simp)
    have e : ((s :: l).map Spec.Slotframe.encode).flatten ++ r =
      s.encode ++ ((l.map Spec.Slotframe.encode).flatten ++ r) := by simp
    have hk := sfLinks_encode s h1 ((l.map Spec.Slotframe.encode).flatten ++ r)
    have hl := slotframe_encode_length s
    rw [e, List.length_cons, sfTails, if_pos (by
      rw [hk, List.length_append]; omega), hk]
    refine .cons (slotframeReads_encode s h0 h1 h2 _) ?_
    rw [List.drop_left' (by omega)]
    exact sfTails_encode l r fun x hx => h x (by simp [hx])

/-- The encoding of fewer than 256 slotframes with 1 to 255 links each, followed by anything, is
accepted; running the descriptor iterator and every link iterator to its end yields exactly the
encoded slotframes and links, without panic. -/
theorem C23_reads_encoding_partial (l : List Spec.Slotframe) (r : Bytes) (hn : l.length < 256)
    (h : ∀ s ∈ l, s.links ≠ [] ∧ s.links.length < 256 ∧ ∀ k ∈ s.links, k.Valid) :
    TschSlotframeAndLink.new (Spec.encodeSlotframes l ++ r) = .ok (Spec.encodeSlotframes l ++ r) ∧
    ∃ ds it', TschSlotframeAndLink.descriptors (Spec.encodeSlotframes l ++ r) = .ok (ds, it') ∧
      slotframeNext it' = .ok (none, it') ∧ List.Forall₂ SlotframeReads ds l := by
  simp only [Spec.encodeSlotframes, List.cons_append]
  refine ⟨TschSlotframeAndLink.new_cons _ _, ?_⟩
  obtain ⟨it', h1, h2⟩ := descriptors_cons (BitVec.ofNat 8 l.length)
    ((l.map Spec.Slotframe.encode).flatten ++ r)
  refine ⟨_, it', h1, h2, ?_⟩
  have : (BitVec.ofNat 8 l.length).toNat = l.length := by simp [Nat.mod_eq_of_lt hn]
  rw [this]
  exact sfTails_encode l r h

example : ∃ ds it', TschSlotframeAndLink.descriptors
      [1, 1, 0x34, 0x12, 2, 5, 0, 6, 0, 0x0f, 7, 0, 8, 0, 1, 0xaa] = .ok (ds, it') ∧
    slotframeNext it' = .ok (none, it') ∧
    List.Forall₂ SlotframeReads ds [⟨1, 0x1234, [⟨5, 6, 0x0f⟩, ⟨7, 8, 1⟩]⟩] :=
  (C23_reads_encoding_partial [⟨1, 0x1234, [⟨5, 6, 0x0f⟩, ⟨7, 8, 1⟩]⟩] [0xaa] (by decide)
    (by simp [Spec.Link.Valid])).2

theorem sfSize_encode : ∀ (l : List Spec.Slotframe) (r : Bytes), (∀ s ∈ l, s.links.length < 256) →
    sfSize (sfTails l.length ((l.map Spec.Slotframe.encode).flatten ++ r)) =
      ((l.map Spec.Slotframe.encode).flatten).length
  | [], _, _ => rfl
  | s :: l, r, h => by
    have h1 := h s (by simp)
    have e : ((s :: l).map Spec.Slotframe.encode).flatten ++ r =
      s.encode ++ ((l.map Spec.Slotframe.encode).flatten ++ r) := by simp
    have hk := sfLinks_encode s h1 ((l.map Spec.Slotframe.encode).flatten ++ r)
    have hl := slotframe_encode_length s
    rw [e, List.length_cons, sfTails, if_pos (by rw [hk, List.length_append]; omega), hk, sfSize, hk,
      List.drop_left' (by omega), sfSize_encode l r fun x hx => h x (by simp [hx]), List.map_cons,
      List.flatten_cons, List.length_append]
    omega

/-- The lengths and contents of encoded slotframe lists and descriptors, whatever follows them: the
length of the list is that of its encoding and its content are the descriptors, the length of a
descriptor is that of its encoding and its content are the links. -/
theorem C23_contents (l : List Spec.Slotframe) (r : Bytes) (hn : l.length < 256)
    (h : ∀ s ∈ l, s.links.length < 256) :
    TschSlotframeAndLink.numberOfSlotframes (Spec.encodeSlotframes l ++ r) =
      .ok (BitVec.ofNat 8 l.length) ∧
    TschSlotframeAndLink.len (Spec.encodeSlotframes l ++ r) = .ok (Spec.encodeSlotframes l).length ∧
    TschSlotframeAndLink.content (Spec.encodeSlotframes l ++ r) =
      .ok (l.map Spec.Slotframe.encode).flatten ∧
    ∀ s ∈ l, ∀ r, SlotframeDescriptor.len (s.encode ++ r) = .ok s.encode.length ∧
      SlotframeDescriptor.content (s.encode ++ r) = .ok (s.links.map Spec.Link.encode).flatten := by
  have hlen : TschSlotframeAndLink.len (Spec.encodeSlotframes l ++ r) =
      .ok (Spec.encodeSlotframes l).length := by
    simp only [Spec.encodeSlotframes, List.cons_append]
    obtain ⟨it', h1, -⟩ := descriptors_cons (BitVec.ofNat 8 l.length)
      ((l.map Spec.Slotframe.encode).flatten ++ r)
    have : (BitVec.ofNat 8 l.length).toNat = l.length := by simp [Nat.mod_eq_of_lt hn]
    rw [this] at h1
    simp only [TschSlotframeAndLink.len, h1, bind_ok]
    rw [TschSlotframeAndLink.sumLens_eq _ fun t ht => (mem_sfTails _ _ t ht).1, bind_ok,
      sfSize_encode l r h, List.length_cons, Nat.add_comm]
  refine ⟨by simp [TschSlotframeAndLink.numberOfSlotframes, Spec.encodeSlotframes], hlen, ?_, ?_⟩
  · rw [TschSlotframeAndLink.content, hlen, bind_ok, slice_ok (by simp [Spec.encodeSlotframes]) (by simp)]
    simp [Spec.encodeSlotframes]
  · intro s hs r
    have h4 := slotframe_encode_length s
    have hl := h s hs
    have e : SlotframeDescriptor.links (s.encode ++ r) = .ok (BitVec.ofNat 8 s.links.length) := by
      simp [SlotframeDescriptor.links, Spec.Slotframe.encode, u16bytes]
    have e2 : SlotframeDescriptor.len (s.encode ++ r) = .ok s.encode.length := by
      rw [SlotframeDescriptor.len, e, bind_ok, h4, BitVec.toNat_ofNat, Nat.mod_eq_of_lt hl, Nat.mul_comm]
    refine ⟨e2, ?_⟩
    rw [SlotframeDescriptor.content, e2, bind_ok, slice_ok (by omega) (by simp)]
    have h5 := encodeLinks_length s.links
    rw [List.drop_append_of_le_length (by omega), List.take_left' (by rw [List.length_drop])]
    simp [Spec.Slotframe.encode, u16bytes]

/-- The full statement, without the restriction to slotframes with a link. -/
def C23_statement : Prop := ∀ (l : List Spec.Slotframe), l.length < 256 →
    (∀ s ∈ l, s.links.length < 256 ∧ ∀ k ∈ s.links, k.Valid) →
    ∃ ds it', TschSlotframeAndLink.descriptors (Spec.encodeSlotframes l) = .ok (ds, it') ∧
      List.Forall₂ SlotframeReads ds l

/-- It is false: a slotframe without links is read as having one link (with no bytes, so that
reading its timeslot panics). -/
theorem C23_false : ¬ C23_statement := by
  intro h
  obtain ⟨ds, it', h1, h2⟩ := h [⟨1, 10, []⟩] (by decide) (by simp)
  have e : TschSlotframeAndLink.descriptors (Spec.encodeSlotframes [⟨1, 10, []⟩]) =
    .ok ([[1, 10, 0, 0]], ⟨[1, 10, 0, 0], 4, true, 1, 1⟩) := by decide
  rw [e] at h1
  cases h1
  cases h2 with
  | cons h2 _ =>
    obtain ⟨-, -, -, it, ls, it', h3, h4, -, h5⟩ := h2
    have e2 : SlotframeDescriptor.linkIter [1, 10, 0, 0] = .ok ⟨[], 0, false⟩ := by decide
    rw [e2] at h3; cases h3
    rw [drain_links_empty _ (by simp)] at h4
    cases h4
    cases h5

/-- What happens instead: every descriptor without links yields exactly one link, and all its
getters panic. -/
theorem C23_no_links_panic (d : Bytes) (h4 : 4 ≤ d.length)
    (h0 : SlotframeDescriptor.links d = .ok 0) :
    ∃ it, SlotframeDescriptor.linkIter d = .ok it ∧
      drain linkNext (it.data.length + 2) it = .ok ([[]], ⟨[], 5, true⟩) ∧
      LinkInformation.timeslot [] = .panic ∧ LinkInformation.channelOffset [] = .panic ∧
      LinkInformation.linkOptions [] = .panic := by
  have hz : sfLinks d = 0 := by
    rw [links_eq h4] at h0; injection h0 with h0; simp only [sfLinks, h0]; rfl
  refine ⟨_, linkIter_eq ⟨h4, by omega⟩, ?_, by decide, by decide, by decide⟩
  rw [hz]
  exact drain_links_empty _ (by simp)

example : SlotframeDescriptor.links [1, 0x34, 0x12, 0] = .ok 0 := rfl

/-- Safety for arbitrary bytes: on every nonempty content the descriptor iteration ends without
panic; every descriptor's own fields and link iterator are readable without panic, and if the
descriptor announces at least one link its iterator yields exactly the announced number of links,
all of whose fields are readable. -/
theorem C23_reads_safe (d : Bytes) (h : d ≠ []) :
    TschSlotframeAndLink.new d = .ok d ∧
    ∃ ds it', TschSlotframeAndLink.descriptors d = .ok (ds, it') ∧
      slotframeNext it' = .ok (none, it') ∧
      ∀ t ∈ ds, ∃ hd sz n it, SlotframeDescriptor.handle t = .ok hd ∧
        SlotframeDescriptor.size t = .ok sz ∧ SlotframeDescriptor.links t = .ok n ∧
        SlotframeDescriptor.linkIter t = .ok it ∧
        (n ≠ 0 → ∃ ls it'', drain linkNext (it.data.length + 2) it = .ok (ls, it'') ∧
          linkNext it'' = .ok (none, it'') ∧ ls.length = n.toNat ∧
          ∀ k ∈ ls, ∃ ts co op, LinkInformation.timeslot k = .ok ts ∧
            LinkInformation.channelOffset k = .ok co ∧ LinkInformation.linkOptions k = .ok op) := by
  match d, h with
  | n :: d, _ =>
  refine ⟨TschSlotframeAndLink.new_cons _ _, ?_⟩
  obtain ⟨it', h1, h2⟩ := descriptors_cons n d
  refine ⟨_, it', h1, h2, ?_⟩
  intro t ht
  have hm := mem_sfTails _ _ t ht
  obtain ⟨a, b, c, e, l, rfl⟩ : ∃ a b c e l, t = a :: b :: c :: e :: l := by
    match t, hm.1 with
    | a :: b :: c :: e :: l, _ => exact ⟨a, b, c, e, l, rfl⟩
  have hs : sfLinks (a :: b :: c :: e :: l) = e.toNat := by simp [sfLinks]
  have hl : e.toNat * 5 ≤ l.length := by have := hm.2; rw [hs] at this; simp at this; omega
  refine ⟨a, u16le b c, e, _, by simp [SlotframeDescriptor.handle],
    by simp [SlotframeDescriptor.size, sliceFrom], by simp [SlotframeDescriptor.links],
    linkIter_eq hm, ?_⟩
  intro hne
  have hp : 0 < e.toNat := by
    rcases Nat.eq_zero_or_pos e.toNat with h | h
    · exact absurd (BitVec.eq_of_toNat_eq (by simpa using h)) hne
    · exact h
  rw [hs]
  simp only [List.drop_succ_cons, List.drop_zero]
  have hlen : (l.take (e.toNat * 5)).length = 5 * e.toNat := by rw [List.length_take]; omega
  obtain ⟨s', h3, h4⟩ := drain_links (e.toNat - 1) ((l.take (e.toNat * 5)).length + 2)
    (l.take (e.toNat * 5)) 0 (by omega) (by omega)
  rw [show e.toNat - 1 + 1 = e.toNat by omega, List.drop_zero] at h3
  refine ⟨_, s', h3, h4, ?_⟩
  have key : ∀ (m : Nat) (q : Bytes), q.length = 5 * m → (linkTails m q).length = m ∧
      ∀ k ∈ linkTails m q, 5 ≤ k.length := by
    intro m
    induction m with
    | zero => intro q _; simp [linkTails]
    | succ m ih =>
      intro q hq
      obtain ⟨i1, i2⟩ := ih (q.drop 5) (by rw [List.length_drop]; omega)
      refine ⟨by simp [linkTails, i1], ?_⟩
      intro k hk
      rcases List.mem_cons.mp hk with rfl | hk
      · omega
      · exact i2 k hk
  obtain ⟨k1, k2⟩ := key e.toNat _ hlen
  refine ⟨k1, ?_⟩
  intro k hk
  match k, k2 k hk with
  | a0 :: a1 :: a2 :: a3 :: a4 :: _, _ =>
    exact ⟨u16le a0 a1, u16le a2 a3, a4 &&& 0x1f#8, by simp [LinkInformation.timeslot],
      by simp [LinkInformation.channelOffset, sliceFrom], by simp [LinkInformation.linkOptions]⟩

example : Spec.encodeSlotframes [⟨1, 0x1234, [⟨5, 6, 0x0f⟩, ⟨7, 8, 1⟩]⟩] =
    [1, 1, 0x34, 0x12, 2, 5, 0, 6, 0, 0x0f, 7, 0, 8, 0, 1] := by decide

end Dot15d4.Props
