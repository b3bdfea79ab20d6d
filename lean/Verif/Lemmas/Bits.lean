import Mathlib.Tactic.IntervalCases
import Verif.Rust

namespace Dot15d4

/-- Decide an equality of 16-bit words bit by bit. -/
macro "bits16" : tactic => `(tactic| (
  apply BitVec.eq_of_getLsbD_eq
  intro i hi
  simp only [BitVec.getLsbD_and, BitVec.getLsbD_or, BitVec.getLsbD_not, BitVec.getLsbD_shiftLeft,
    BitVec.getLsbD_ushiftRight, BitVec.getLsbD_setWidth]
  interval_cases i <;> simp [-BitVec.getLsbD_eq_getElem, *]))

@[simp] theorem updU16_u16bytes (w : BitVec 16) (l : Bytes) (f) :
    updU16 (u16bytes w ++ l) f = .ok (u16bytes (f w) ++ l) := by
  simp [u16bytes, updU16]
  simp [modifyTo, sliceTo, copyFromSlice, u16bytes]

theorem getLsbD_of_lt {n : BitVec 16} {k i : Nat} (h : n.toNat < 2 ^ k) (hi : k ≤ i) :
    n.getLsbD i = false := by
  rw [BitVec.getLsbD, Nat.testBit_lt_two_pow]
  exact Nat.lt_of_lt_of_le h (Nat.pow_le_pow_right (by decide) hi)

end Dot15d4
