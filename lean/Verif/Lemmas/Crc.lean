import Verif.Spec.Crc
import Verif.Model.Frames
import Mathlib.Tactic.Ring
import Mathlib.Tactic.IntervalCases
import Mathlib.Algebra.Polynomial.RingDivision
import Mathlib.Tactic.ComputeDegree
import Mathlib.Tactic.LinearCombination

namespace Dot15d4
open Spec Polynomial

theorem gf_xor (a b : Bool) : gf (a ^^ b) = gf a + gf b := by
  cases a <;> cases b <;> decide

theorem gf_inj {a b : Bool} (h : gf a = gf b) : a = b := by
  revert h; cases a <;> cases b <;> decide

@[simp] theorem gf_false : gf false = 0 := rfl

theorem bitsPoly_append (a b : List Bool) :
    bitsPoly (a ++ b) = bitsPoly a * X ^ b.length + bitsPoly b := by
  induction a with
  | nil => simp [bitsPoly]
  | cons x a ih =>
    simp only [List.cons_append, bitsPoly, ih, List.length_append, pow_add]; ring

theorem natDegree_bitsPoly (l : List Bool) : (bitsPoly l).degree < l.length := by
  induction l with
  | nil => simp [bitsPoly]
  | cons x l ih =>
    simp only [bitsPoly, List.length_cons]
    refine lt_of_le_of_lt (degree_add_le _ _) (max_lt ?_ (lt_trans ih ?_))
    · exact lt_of_le_of_lt (degree_C_mul_X_pow_le _ _) (by exact_mod_cast Nat.lt_succ_self _)
    · exact_mod_cast Nat.lt_succ_self _

theorem bitsPoly_inj : ∀ {a b : List Bool}, a.length = b.length → bitsPoly a = bitsPoly b → a = b
  | [], [], _, _ => rfl
  | x :: a, y :: b, hl, h => by
    simp only [List.length_cons, Nat.add_right_cancel_iff] at hl
    have hc := congrArg (fun p => coeff p a.length) h
    have da : (bitsPoly a).coeff a.length = 0 := coeff_eq_zero_of_degree_lt (natDegree_bitsPoly a)
    have db : (bitsPoly b).coeff a.length = 0 :=
      coeff_eq_zero_of_degree_lt (hl ▸ natDegree_bitsPoly b)
    simp only [bitsPoly, coeff_add, coeff_C_mul, coeff_X_pow, ← hl, da, db, if_true, mul_one,
      add_zero] at hc
    have hxy := gf_inj hc
    subst hxy
    have : bitsPoly a = bitsPoly b := by
      simp only [bitsPoly, hl] at h; exact add_left_cancel h
    rw [bitsPoly_inj hl this]

/-- The sixteen bits of the register. -/
def regBits (c : BitVec 16) : List Bool :=
  [c.getLsbD 0, c.getLsbD 1, c.getLsbD 2, c.getLsbD 3, c.getLsbD 4, c.getLsbD 5, c.getLsbD 6,
   c.getLsbD 7, c.getLsbD 8, c.getLsbD 9, c.getLsbD 10, c.getLsbD 11, c.getLsbD 12, c.getLsbD 13,
   c.getLsbD 14, c.getLsbD 15]

noncomputable def regPoly (c : BitVec 16) : (ZMod 2)[X] := bitsPoly (regBits c)

theorem regBits_inj {a b : BitVec 16} (h : regBits a = regBits b) : a = b := by
  simp only [regBits, List.cons.injEq, and_true] at h
  obtain ⟨h0, h1, h2, h3, h4, h5, h6, h7, h8, h9, h10, h11, h12, h13, h14, h15⟩ := h
  apply BitVec.eq_of_getLsbD_eq
  intro i hi
  interval_cases i <;> assumption

theorem crcBit_xor (a b : BitVec 16) : crcBit (a ^^^ b) = crcBit a ^^^ crcBit b := by
  unfold crcBit
  have e : (a ^^^ b) >>> 1 = a >>> 1 ^^^ b >>> 1 := BitVec.ushiftRight_xor_distrib ..
  rw [BitVec.getLsbD_xor, e]
  cases a.getLsbD 0 <;> cases b.getLsbD 0 <;>
    simp only [Bool.xor_false, Bool.xor_true, Bool.not_true, Bool.not_false, Bool.xor_self, Bool.false_eq_true, if_true, if_false]
  · rw [BitVec.xor_assoc]
  · rw [BitVec.xor_assoc, BitVec.xor_assoc, BitVec.xor_comm (b >>> 1)]
  · rw [BitVec.xor_comm (b >>> 1), ← BitVec.xor_assoc, BitVec.xor_assoc (a >>> 1)]; simp

/-- The bits of the register after a step. -/
theorem crcBit_getLsbD (c : BitVec 16) (i : Nat) :
    (crcBit c).getLsbD i = ((c.getLsbD (i + 1)) ^^ (c.getLsbD 0 && (0x8408#16).getLsbD i)) := by
  unfold crcBit
  cases c.getLsbD 0 <;>
    simp [BitVec.getLsbD_xor, BitVec.getLsbD_ushiftRight, Nat.add_comm]

theorem regPoly_crcBit (c : BitVec 16) :
    regPoly (crcBit c) + C (gf (c.getLsbD 0)) * X ^ 16 =
      X * regPoly c + C (gf (c.getLsbD 0)) * (X ^ 12 + X ^ 5 + 1) := by
  have h15 : c.getLsbD 16 = false := BitVec.getLsbD_of_ge _ _ (by decide)
  simp only [regPoly, regBits, bitsPoly, List.length_cons, List.length_nil, crcBit_getLsbD,
    gf_xor, map_add, h15, Nat.reduceAdd]
  simp only [
    (by decide : (0x8408#16).getLsbD 0 = false),
    (by decide : (0x8408#16).getLsbD 1 = false),
    (by decide : (0x8408#16).getLsbD 2 = false),
    (by decide : (0x8408#16).getLsbD 3 = true),
    (by decide : (0x8408#16).getLsbD 4 = false),
    (by decide : (0x8408#16).getLsbD 5 = false),
    (by decide : (0x8408#16).getLsbD 6 = false),
    (by decide : (0x8408#16).getLsbD 7 = false),
    (by decide : (0x8408#16).getLsbD 8 = false),
    (by decide : (0x8408#16).getLsbD 9 = false),
    (by decide : (0x8408#16).getLsbD 10 = true),
    (by decide : (0x8408#16).getLsbD 11 = false),
    (by decide : (0x8408#16).getLsbD 12 = false),
    (by decide : (0x8408#16).getLsbD 13 = false),
    (by decide : (0x8408#16).getLsbD 14 = false),
    (by decide : (0x8408#16).getLsbD 15 = true),
    Bool.and_true, Bool.and_false, gf_false, map_zero]
  ring

theorem gen_dvd_step (c : BitVec 16) : gen ∣ regPoly (crcBit c) - X * regPoly c := by
  have h := regPoly_crcBit c
  refine ⟨- C (gf (c.getLsbD 0)), ?_⟩
  have two : (2 : (ZMod 2)[X]) = 0 := CharTwo.two_eq_zero
  rw [gen]
  linear_combination h + (C (gf (c.getLsbD 0)) * (X ^ 12 + X ^ 5 + 1)) * two

/-- Feeding one bit. -/
def feed (c : BitVec 16) (b : Bool) : BitVec 16 := crcBit (c ^^^ (if b then 1#16 else 0#16))

theorem regPoly_xor (a b : BitVec 16) : regPoly (a ^^^ b) = regPoly a + regPoly b := by
  simp only [regPoly, regBits, bitsPoly, List.length_cons, List.length_nil, BitVec.getLsbD_xor,
    gf_xor, map_add]
  ring

theorem regPoly_bit (b : Bool) : regPoly (if b then 1#16 else 0#16) = C (gf b) * X ^ 15 := by
  cases b
  · simp [regPoly, regBits, bitsPoly]
  · simp [regPoly, regBits, bitsPoly]

theorem gen_dvd_feed (bs : List Bool) : ∀ c : BitVec 16,
    gen ∣ regPoly (bs.foldl feed c) - (X ^ bs.length * regPoly c + X ^ 16 * bitsPoly bs) := by
  induction bs with
  | nil => intro c; simp [bitsPoly]
  | cons b bs ih =>
    intro c
    have h1 := ih (feed c b)
    have h2 := gen_dvd_step (c ^^^ (if b then 1#16 else 0#16))
    rw [regPoly_xor, regPoly_bit] at h2
    have h3 := dvd_add h1 (Dvd.dvd.mul_left h2 (X ^ bs.length))
    convert h3 using 1
    simp only [List.foldl_cons, List.length_cons, bitsPoly, feed]
    ring

theorem crcBits_feed : ∀ (n : Nat) (c w : BitVec 16), w.toNat < 2 ^ n →
    crcBits n (c ^^^ w) = ((List.range n).map w.getLsbD).foldl feed c
  | 0, c, w, h => by
    have : w = 0#16 := by apply BitVec.eq_of_toNat_eq; simp at h ⊢; omega
    simp [crcBits, this]
  | n+1, c, w, h => by
    have hs : (w >>> 1).toNat < 2 ^ n := by
      rw [BitVec.toNat_ushiftRight, Nat.shiftRight_eq_div_pow]
      rw [Nat.pow_succ] at h; omega
    have e : crcBit (c ^^^ w) = feed c (w.getLsbD 0) ^^^ (w >>> 1) := by
      have hw : c ^^^ w = (c ^^^ (if w.getLsbD 0 then 1#16 else 0#16)) ^^^ ((w >>> 1) <<< 1) := by
        apply BitVec.eq_of_getLsbD_eq
        intro i hi
        rcases Nat.eq_zero_or_pos i with rfl | hp
        · cases hw : w.getLsbD 0 <;> simp at hw <;> simp [hw]
        · have : (1#16).getLsbD i = false := by
            interval_cases i <;> decide
          have h2 : ¬ i < 1 := by omega
          have h3 : 1 + (i - 1) = i := by omega
          cases w.getLsbD 0 <;>
            simp [BitVec.getLsbD_xor, BitVec.getLsbD_shiftLeft, BitVec.getLsbD_ushiftRight, this, h2, h3, hi,
              -BitVec.getLsbD_eq_getElem]
      rw [hw, crcBit_xor]
      congr 1
      apply BitVec.eq_of_getLsbD_eq
      intro i hi
      rw [crcBit_getLsbD]
      have : (w >>> 1 <<< 1).getLsbD 0 = false := by simp
      rw [this]
      by_cases h15 : i + 1 < 16
      · simp [BitVec.getLsbD_shiftLeft, BitVec.getLsbD_ushiftRight, h15, -BitVec.getLsbD_eq_getElem]
      · have : 1 + i ≥ 16 := by omega
        simp [BitVec.getLsbD_shiftLeft, BitVec.getLsbD_ushiftRight, h15, -BitVec.getLsbD_eq_getElem]
        rw [BitVec.getLsbD_of_ge _ _ this]
    rw [crcBits, e, crcBits_feed n _ _ hs, List.range_succ_eq_map]
    simp only [List.map_cons, List.map_map, List.foldl_cons]
    congr 2
    funext i
    simp [BitVec.getLsbD_ushiftRight, Nat.add_comm, Function.comp]

theorem crcByte_feed (c : BitVec 16) (b : Byte) : crcByte c b = (byteBits b).foldl feed c := by
  rw [crcByte, crcBits_feed 8 c _ (by simp; omega)]
  congr 1

theorem crc16_feed (l : Bytes) (c : BitVec 16) : l.foldl crcByte c = (txBits l).foldl feed c := by
  induction l generalizing c with
  | nil => rfl
  | cons b l ih => simp [txBits, List.foldl_append, crcByte_feed, ih, txBits]

theorem bits_length (l : Bytes) : (txBits l).length = 8 * l.length := by
  induction l with
  | nil => rfl
  | cons b l ih => simp only [txBits, List.flatMap_cons, List.length_append, List.length_cons] at *; rw [ih]; simp only [byteBits, List.length_cons, List.length_nil]; omega

theorem bits_append (a b : Bytes) : txBits (a ++ b) = txBits a ++ txBits b := by simp [txBits]

/-- The register after a message is the remainder of the message times `x^16`. -/
theorem gen_dvd_crc16 (l : Bytes) : gen ∣ regPoly (crc16 l) - X ^ 16 * poly l := by
  have h := gen_dvd_feed (txBits l) 0#16
  have h0 : regPoly 0#16 = 0 := by simp [regPoly, regBits, bitsPoly]
  rw [h0, mul_zero, zero_add, ← crc16_feed] at h
  exact h

theorem gen_degree : gen.degree = 16 := by unfold gen; compute_degree!

theorem gen_monic : gen.Monic := by unfold gen; monicity!

theorem eq_zero_of_gen_dvd {p : (ZMod 2)[X]} (h : gen ∣ p) (hd : p.degree < 16) : p = 0 := by
  by_contra hp
  have := degree_le_of_dvd h hp
  rw [gen_degree] at this
  exact absurd hd (not_lt.mpr this)

theorem bits_u16 (w : BitVec 16) : txBits (u16bytes w) = regBits w := by
  simp [txBits, u16bytes, byteBits, regBits, BitVec.getLsbD_setWidth, BitVec.getLsbD_ushiftRight,
    -BitVec.getLsbD_eq_getElem]

/-- Divisibility of a frame means that its last two bytes are the register. -/
theorem gen_dvd_iff (c : Bytes) (w : BitVec 16) :
    gen ∣ poly (c ++ u16bytes w) ↔ w = crc16 c := by
  have e : poly (c ++ u16bytes w) = X ^ 16 * poly c + regPoly w := by
    rw [poly, bits_append, bitsPoly_append, bits_u16, mul_comm]; rfl
  have h := gen_dvd_crc16 c
  have two : (2 : (ZMod 2)[X]) = 0 := CharTwo.two_eq_zero
  constructor
  · intro hd
    rw [e] at hd
    have h2 := dvd_sub hd h
    have h3 : gen ∣ regPoly w - regPoly (crc16 c) := by
      have := dvd_add h hd
      have e2 : regPoly (crc16 c) - X ^ 16 * poly c + (X ^ 16 * poly c + regPoly w) =
          regPoly w - regPoly (crc16 c) := by linear_combination regPoly (crc16 c) * two
      rwa [e2] at this
    have hdeg : (regPoly w - regPoly (crc16 c)).degree < 16 :=
      lt_of_le_of_lt (degree_sub_le _ _) (max_lt (natDegree_bitsPoly _) (natDegree_bitsPoly _))
    have := eq_zero_of_gen_dvd h3 hdeg
    exact regBits_inj (bitsPoly_inj rfl (sub_eq_zero.mp this))
  · rintro rfl
    rw [e]
    have e2 : X ^ 16 * poly c + regPoly (crc16 c) = regPoly (crc16 c) - X ^ 16 * poly c := by
      linear_combination (X ^ 16 * poly c) * two
    rw [e2]; exact h

end Dot15d4
