import Verif.Spec.CsmaTransmit
import Verif.Lemmas.CsmaFrames
import Verif.Lemmas.Poll

/-!
# The transmit task: durations, acknowledgements, traces
-/

namespace Dot15d4.Csma
open Dot15d4 Out Spec Props
open Dot15d4.Sync (Either)

theorem setWidth_ofInt (x : Int) : (BitVec.ofInt 64 x).setWidth 32 = BitVec.ofInt 32 x := by
  apply BitVec.eq_of_toNat_eq
  rw [BitVec.toNat_setWidth, BitVec.toNat_ofInt, BitVec.toNat_ofInt]
  omega

theorem ackTimeout_eq (c : Consts) : ackTimeout c = ackWait c := by
  rw [ackTimeout, ackWait, asU32, ← setWidth_ofInt]
  congr 1
  simp only [Duration.asUs, Duration.add, Duration.fromUs]
  rw [BitVec.ofInt_add, BitVec.ofInt_add, BitVec.ofInt_toInt, BitVec.ofInt_toInt]
  rfl

theorem retryDelay_eq (c : Consts) : retryDelay c = retryPause c := by
  rw [retryDelay, retryPause, asU32, ← setWidth_ofInt]
  congr 1
  have hs : BitVec.sle c.sifs.us (Duration.fromUs 192).us = true ↔ c.sifs.us.toInt ≤ 192 := by
    have h192 : (Duration.fromUs 192).us.toInt = 192 := by decide
    simp only [BitVec.sle, decide_eq_true_eq, h192]
  rw [maxDuration]
  by_cases h : c.sifs.us.toInt ≤ 192
  · rw [if_pos (hs.2 h), Int.max_eq_right h]
    rfl
  · rw [if_neg (fun h' => h (hs.1 h')), Int.max_eq_left (by omega), BitVec.ofInt_toInt]
    rfl

theorem shl1_ok {be : Nat} (h : be < 32) : shl1 be = .ok (1#32 <<< be) := by
  rw [shl1, if_pos h]

theorem backoff_periods (be : Nat) (h : be < 32) (r : BitVec 32) :
    (BitVec.umod r (1#32 <<< be - 1 + 1)).toNat = r.toNat % 2 ^ be := by
  have e : 1#32 <<< be - 1 + 1 = 1#32 <<< be := by
    rw [BitVec.sub_add_cancel]
  have e2 : (1#32 <<< be).toNat = 2 ^ be := by
    rw [BitVec.toNat_shiftLeft, Nat.shiftLeft_eq, BitVec.toNat_ofNat]
    have : 2 ^ be < 2 ^ 32 := Nat.pow_lt_pow_right (by omega) h
    rw [Nat.one_mod_two_pow (by omega), Nat.one_mul, Nat.mod_eq_of_lt this]
  rw [e]
  show (r % (1#32 <<< be)).toNat = _
  rw [BitVec.toNat_umod, e2]

theorem backoffDelay_eq (c : Consts) (k : Nat) (r : BitVec 32)
    (h : min (c.minBe + k) c.maxBe < 32) :
    backoffDelay c (BitVec.umod r (1#32 <<< (min (c.minBe + k) c.maxBe) - 1 + 1)) =
      backoffPause c k r := by
  rw [backoffDelay, backoffPause, asU32, ← setWidth_ofInt]
  congr 1
  simp only [Duration.asUs, Duration.mul, Duration.fromUs]
  rw [BitVec.ofInt_mul, BitVec.ofInt_toInt]
  congr 1
  apply BitVec.eq_of_toNat_eq
  rw [BitVec.toNat_setWidth, backoff_periods _ h, BitVec.ofInt_natCast, BitVec.toNat_ofNat]

theorem isValidAck_ok (F : RadioFormat) (seq : Byte) (b : Arr 128) :
    ∃ r, isValidAck F seq b.1 = .ok r ∧ (r = true ↔ ValidAck F seq b) := by
  cases hn : F.frameLen b.1 with
  | none =>
    refine ⟨false, by simp [isValidAck, hn], ?_⟩
    simp only [Bool.false_eq_true, false_iff]
    rintro ⟨h, ⟨-, -, n, hn', -⟩, -⟩
    rw [hn] at hn'
    cases hn'
  | some n =>
    by_cases hacc : Acceptable (F.data b.1 n)
    · obtain ⟨H, hb, hw⟩ := exists_header hacc
      rw [hb] at hacc
      have key : ∀ h, Holds F b.1 h → h.bytes = H.bytes := by
        rintro h ⟨-, -, n', hn', hb'⟩
        rw [hn] at hn'
        cases hn'
        rw [← hb', hb]
      simp only [isValidAck, hn, hb, new_header hacc, toOption, bind_ok, header_fc, fc_frameType,
        header_seq hw]
      by_cases hty : (decodeFc H.o0 H.o1).frameType = .ack
      · rw [if_pos hty]
        refine ⟨_, rfl, ?_⟩
        rw [beq_iff_eq]
        constructor
        · intro hs
          exact ⟨H, ⟨hw, hacc, n, hn, hb⟩, hty, hs⟩
        · rintro ⟨h, hh, -, hs⟩
          have e := key h hh
          have s1 := header_seq hh.1
          have s2 := header_seq hw
          rw [e, s2] at s1
          simp only [ok.injEq] at s1
          rw [s1, hs]
      · rw [if_neg hty]
        refine ⟨false, rfl, ?_⟩
        simp only [Bool.false_eq_true, false_iff]
        rintro ⟨h, hh, ht, -⟩
        have e := key h hh
        simp only [Header.bytes, List.cons_append, List.cons.injEq] at e
        simp only [Header.fc, e.1, e.2.1] at ht
        exact hty ht
    · refine ⟨false, by simp [isValidAck, hn, new_not hacc], ?_⟩
      simp only [Bool.false_eq_true, false_iff]
      rintro ⟨h, ⟨-, ha, n', hn', hb⟩, -⟩
      rw [hn] at hn'
      cases hn'
      rw [hb] at hacc
      exact hacc ha

end Dot15d4.Csma
