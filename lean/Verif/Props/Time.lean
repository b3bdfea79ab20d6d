import Verif.Model.Time

/-! # C52: time arithmetic

Microseconds are read as integers.  `FitsI64 x`: the integer is one an `i64` can hold.
-/

namespace Dot15d4.Props
open Out Time

/-- The integer is one an `i64` can hold. -/
def FitsI64 (x : Int) : Prop := -9223372036854775808 ≤ x ∧ x ≤ 9223372036854775807

instance (x : Int) : Decidable (FitsI64 x) := inferInstanceAs (Decidable (_ ∧ _))

/-- The microseconds of a duration, as an integer. -/
def micros (d : Duration) : Int := d.asUs.toInt
/-- The microseconds of an instant, as an integer. -/
def microsAt (d : Instant) : Int := d.asUs.toInt

/-- An operation with the integer result `x` is carried out faithfully: the release build computes `x`
modulo 2^64 (so `x` itself if that fits), the build with overflow checks returns `x` if it fits and
panics if it does not. -/
def Faithful {α : Type} (value : α → Int) (release : α) (checked : Out α) (x : Int) : Prop :=
  value release = x.bmod (2 ^ 64) ∧ FitsI64 (value release) ∧
  (FitsI64 x → value release = x ∧ checked = .ok release) ∧
  (¬ FitsI64 x → checked = .panic)

theorem bmod_of_fits {x : Int} (h : FitsI64 x) : x.bmod (2 ^ 64) = x :=
  Int.bmod_eq_of_le (by have := h.1; simp; omega) (by have := h.2; simp; omega)

theorem fits_toInt (a : I64) : FitsI64 a.toInt := by
  have h1 := BitVec.le_toInt a
  have h2 := BitVec.toInt_lt (x := a)
  simp at h1 h2
  exact ⟨by omega, by omega⟩

theorem faithful_of {α : Type} {value : α → Int} {wrap : I64 → α} (hw : ∀ a, value (wrap a) = a.toInt)
    {r : I64} {x : Int} (hr : r.toInt = x.bmod (2 ^ 64)) {o : Bool}
    (ho : o = true ↔ ¬ FitsI64 x) :
    Faithful value (wrap r) ((if o then Out.panic else .ok r) >>= fun y => pure (wrap y)) x := by
  refine ⟨by rw [hw, hr], by rw [hw]; exact fits_toInt r, fun h => ?_, fun h => ?_⟩
  · have : o = false := by
      cases o with
      | false => rfl
      | true => exact absurd h (ho.mp rfl)
    subst this
    exact ⟨by rw [hw, hr, bmod_of_fits h], rfl⟩
  · rw [if_pos (ho.mpr h)]; rfl

theorem not_fits (x : Int) : ¬ FitsI64 x ↔ 9223372036854775808 ≤ x ∨ x < -9223372036854775808 := by
  simp only [FitsI64]; omega

/-- Addition and subtraction of durations and instants. -/
theorem C52_add_sub (a b : Duration) (i j : Instant) :
    Faithful micros (a.add b) (Checked.add a b) (micros a + micros b) ∧
    Faithful micros (a.sub b) (Checked.sub a b) (micros a - micros b) ∧
    Faithful microsAt (i.addDur a) (Checked.addDur i a) (microsAt i + micros a) ∧
    Faithful microsAt (i.subDur a) (Checked.subDur i a) (microsAt i - micros a) ∧
    Faithful microsAt (i.sub j) (Checked.subInstant i j) (microsAt i - microsAt j) := by
  have ha : ∀ x y : I64, BitVec.saddOverflow x y = true ↔ ¬ FitsI64 (x.toInt + y.toInt) := by
    intro x y; simp [BitVec.saddOverflow, not_fits]
  have hs : ∀ x y : I64, BitVec.ssubOverflow x y = true ↔ ¬ FitsI64 (x.toInt - y.toInt) := by
    intro x y; simp [BitVec.ssubOverflow, not_fits]
  exact ⟨faithful_of (value := micros) (wrap := Duration.fromUs) (fun _ => rfl) (BitVec.toInt_add ..) (ha ..),
    faithful_of (value := micros) (wrap := Duration.fromUs) (fun _ => rfl) (BitVec.toInt_sub ..) (hs ..),
    faithful_of (value := microsAt) (wrap := Instant.fromUs) (fun _ => rfl) (BitVec.toInt_add ..) (ha ..),
    faithful_of (value := microsAt) (wrap := Instant.fromUs) (fun _ => rfl) (BitVec.toInt_sub ..) (hs ..),
    faithful_of (value := microsAt) (wrap := Instant.fromUs) (fun _ => rfl) (BitVec.toInt_sub ..) (hs ..)⟩

/-- What "multiplication by any `usize`" would mean. -/
def C52_mul_statement : Prop :=
  ∀ (a : Duration) (n : BitVec 64),
    Faithful micros (a.mul n) (Checked.mul a n) (micros a * n.toNat)

theorem toInt_small {n : BitVec 64} (hn : n.toNat < 2 ^ 63) : n.toInt = n.toNat :=
  BitVec.toInt_eq_toNat_of_lt (by omega)

/-- Multiplication by a factor below 2^63 (which every factor is on a 32-bit machine, and every length). -/
theorem C52_mul_partial (a : Duration) (n : BitVec 64) (hn : n.toNat < 2 ^ 63) :
    Faithful micros (a.mul n) (Checked.mul a n) (micros a * n.toNat) := by
  have h := toInt_small hn
  refine faithful_of (value := micros) (wrap := Duration.fromUs) (fun _ => rfl) ?_ ?_
  · rw [BitVec.toInt_mul, h]; rfl
  · rw [← h]; simp [BitVec.smulOverflow, not_fits, micros]

example : Checked.mul ⟨1000⟩ 10 = .ok ⟨10000⟩ ∧ (10 : BitVec 64).toNat < 2 ^ 63 := by decide

/-- Larger factors are taken for negative ones: with overflow checks, one microsecond times 2^63 + 1 is
a negative duration instead of a panic. -/
theorem C52_mul_false : ¬ C52_mul_statement := by
  intro h
  have := (h ⟨1⟩ 0x8000000000000001#64).2.2.2 (by decide)
  revert this
  decide

/-- What "division by any `usize`" would mean: a panic for zero, else the quotient rounded to zero. -/
def DividesTo (a : Duration) (n : BitVec 64) : Prop :=
  if n.toNat = 0 then a.div n = .panic
  else ∃ q, a.div n = .ok q ∧ micros q = (micros a).tdiv n.toNat

/-- Division by a divisor below 2^63 is the integer quotient; it never overflows. -/
theorem C52_div_partial (a : Duration) (n : BitVec 64) (hn : n.toNat < 2 ^ 63) : DividesTo a n := by
  unfold DividesTo
  split
  · rename_i h0
    have : n = 0 := BitVec.eq_of_toNat_eq (by simpa using h0)
    simp [Duration.div, this]
  · rename_i h0
    have hz : n ≠ 0 := fun h => h0 (by simp [h])
    have hm : n ≠ BitVec.allOnes 64 := by
      intro h; rw [h] at hn; simp at hn
    refine ⟨⟨a.asUs.sdiv n⟩, ?_, ?_⟩
    · rw [Duration.div, if_neg hz, if_neg (fun h => hm h.2)]; rfl
    · show (a.asUs.sdiv n).toInt = _
      rw [BitVec.toInt_sdiv_of_ne_or_ne _ _ (.inr ?_), toInt_small hn]
      · rfl
      · intro h
        apply hm
        rw [h]; decide

/-- Larger divisors are taken for negative ones: -2^63 us / 2^63 is 1 us instead of -1 us. -/
theorem C52_div_false : ¬ ∀ a n, DividesTo a n := by
  intro h
  have := h ⟨0x8000000000000000#64⟩ 0x8000000000000000#64
  unfold DividesTo at this
  rw [if_neg (by decide)] at this
  obtain ⟨q, h1, h2⟩ := this
  have e : Duration.div ⟨0x8000000000000000#64⟩ 0x8000000000000000#64 = .ok ⟨1⟩ := by decide
  rw [e] at h1
  cases h1
  revert h2
  decide

/-- Division, exactly: it panics for the divisor 0 and when the most negative duration is divided by
2^64 - 1 (which is taken for -1); in every other case it gives the quotient, rounded to zero, by the
divisor as a signed number. -/
theorem C52_div_exact (a : Duration) (n : BitVec 64) :
    (a.div n = .panic ∧ (n.toNat = 0 ∨ (micros a = -2 ^ 63 ∧ n.toNat = 2 ^ 64 - 1))) ∨
    (¬ (n.toNat = 0 ∨ (micros a = -2 ^ 63 ∧ n.toNat = 2 ^ 64 - 1)) ∧
      ∃ q, a.div n = .ok q ∧ micros q = (micros a).tdiv n.toInt) := by
  have h0 : n.toNat = 0 ↔ n = 0 :=
    ⟨fun h => BitVec.eq_of_toNat_eq (by simpa using h), fun h => by simp [h]⟩
  have h1 : n.toNat = 2 ^ 64 - 1 ↔ n = BitVec.allOnes 64 :=
    ⟨fun h => BitVec.eq_of_toNat_eq (by rw [h]; rfl), fun h => by rw [h]; rfl⟩
  have h2 : micros a = -2 ^ 63 ↔ a.asUs = BitVec.intMin 64 := by
    have e : (BitVec.intMin 64).toInt = -2 ^ 63 := by decide
    rw [← e]
    exact BitVec.toInt_inj
  rw [h0, h1, h2, Duration.div]
  by_cases hz : n = 0
  · exact .inl ⟨if_pos hz, .inl hz⟩
  · rw [if_neg hz]
    by_cases hm : a.asUs = BitVec.intMin 64 ∧ n = BitVec.allOnes 64
    · exact .inl ⟨if_pos hm, .inr hm⟩
    · rw [if_neg hm]
      refine .inr ⟨by rintro (h | h) <;> contradiction, _, rfl, ?_⟩
      show (a.asUs.sdiv n).toInt = _
      rw [BitVec.toInt_sdiv_of_ne_or_ne]
      · rfl
      · by_cases ha : a.asUs = BitVec.intMin 64
        · refine .inr fun h => hm ⟨ha, ?_⟩
          rw [h]; decide
        · exact .inl ha

example : Duration.div ⟨0x8000000000000000#64⟩ (BitVec.allOnes 64) = .panic ∧
    Duration.div ⟨5⟩ 0 = .panic := by decide

/-- Microseconds put in are read back. -/
theorem C52_conversions (us : I64) :
    (Duration.fromUs us).asUs = us ∧ (Instant.fromUs us).asUs = us ∧ micros Duration.ZERO = 0 :=
  ⟨rfl, rfl, rfl⟩

/-- Instants and durations fit together: going forward and back is the identity, also on overflow of
the release build. -/
theorem C52_there_and_back (i : Instant) (a : Duration) :
    (i.addDur a).subDur a = i ∧ (i.subDur a).addDur a = i := by
  cases i
  constructor <;>
    simp only [Instant.addDur, Instant.subDur, Instant.fromUs, BitVec.add_sub_cancel,
      BitVec.sub_add_cancel]

example : (Duration.fromUs 9223372036854775807).add ⟨1⟩ = ⟨0x8000000000000000#64⟩ ∧
    Checked.add (Duration.fromUs 9223372036854775807) ⟨1⟩ = .panic ∧
    Checked.mul ⟨1000⟩ 10 = .ok ⟨10000⟩ ∧ Duration.div ⟨-7⟩ 2 = .ok ⟨-3⟩ := by decide

end Dot15d4.Props
