import Mathlib.Tactic.Linarith
import Mathlib.Tactic.Ring
import Verif.Model.Text
import Verif.Spec.Text
import Verif.Props.Tsch
import Verif.Props.Macro

/-!
# C74: times are shown in milliseconds, to the nearest hundredth

`Display` of `Duration` and `Instant` divides by 1000 in single precision.  Up to 2^24 microseconds
(16.7 s), and so for every time in a frame, what is shown is nevertheless the nearest hundredth of a
millisecond; for all times, the error is half a hundredth plus a 2^-23th of the time.
-/

namespace Dot15d4.Props
open Dot15d4 Out Spec Text

/-! ## Numbers as text -/

theorem digitValue_digitChar (n : Nat) (h : n < 16) : digitValue n.digitChar = some n := by
  have : ∀ n : Fin 16, digitValue n.1.digitChar = some n.1 := by decide
  exact this ⟨n, h⟩

theorem toDigits_numeral (b : Nat) (hb : 1 < b) (hb' : b ≤ 16) (n : Nat) :
    Numeral b (Nat.toDigits b n) n := by
  induction n using Nat.strongRecOn with
  | ind n ih =>
    rw [Nat.toDigits_eq_if hb]
    split
    · exact .digit _ _ (digitValue_digitChar n (by omega)) ‹_›
    · have hn : n / b < n := Nat.div_lt_self (by omega) hb
      have hm : n % b < b := Nat.mod_lt _ (by omega)
      have h := Numeral.more _ _ _ _ (ih _ hn) (by
        have := Nat.div_pos (show b ≤ n by omega) (by omega : 0 < b)
        omega) (digitValue_digitChar (n % b) (by omega)) hm
      rwa [Nat.div_add_mod] at h

theorem hundredths_shows (h : Nat) : ShowsHundredths (hundredths h) h :=
  ⟨_, _, _, h % 100 / 10, h % 10, rfl, toDigits_numeral 10 (by decide) (by decide) _,
    digitValue_digitChar _ (by omega), digitValue_digitChar _ (by omega), by omega, by omega, by omega⟩

/-! ## Rounding -/

theorem roundDiv_near (n d : Nat) (hd : 0 < d) :
    2 * n ≤ 2 * (d * roundDiv n d) + d ∧ 2 * (d * roundDiv n d) ≤ 2 * n + d := by
  have h := Nat.div_add_mod n d
  have hr := Nat.mod_lt n hd
  unfold roundDiv
  dsimp only
  split
  · omega
  · split
    · have : n / d % 2 = 0 ∨ n / d % 2 = 1 := by omega
      rcases this with h0 | h0
      · rw [h0, Nat.add_zero]; omega
      · rw [h0, Nat.mul_add]; omega
    · rw [Nat.mul_add]; omega

theorem roundDiv_exact (n d : Nat) (hd : 0 < d) (h : d ∣ n) : roundDiv n d * d = n := by
  unfold roundDiv
  dsimp only
  rw [Nat.mod_eq_zero_of_dvd h, if_pos (by omega)]
  exact Nat.div_mul_cancel h

/-- Rounding to 24 binary digits changes a number that has more than 24 by at most a 2^24th. -/
theorem roundF32_near (n d : Nat) (hd : 0 < d) (hn : d * 2 ^ 23 ≤ n) :
    2 ^ 24 * n ≤ 2 ^ 24 * (d * roundF32 n d) + n ∧ 2 ^ 24 * (d * roundF32 n d) ≤ 2 ^ 24 * n + n := by
  unfold roundF32
  dsimp only
  have hq : 2 ^ 23 ≤ n / d := (Nat.le_div_iff_mul_le hd).2 (by rw [Nat.mul_comm]; exact hn)
  have hl : 23 ≤ Nat.log2 (n / d) := (Nat.le_log2 (by omega)).2 hq
  have hu : 2 ^ Nat.log2 (n / d) ≤ n / d := Nat.log2_self_le (by omega)
  generalize Nat.log2 (n / d) = k at *
  have hk : 2 ^ k = 2 ^ (k - 23) * 2 ^ 23 := by rw [← Nat.pow_add]; congr 1; omega
  have hpos : 0 < 2 ^ (k - 23) := Nat.pow_pos (by decide)
  generalize 2 ^ (k - 23) = u at *
  have h := roundDiv_near n (d * u) (Nat.mul_pos hd hpos)
  have hdu : d * u * 2 ^ 23 ≤ n := by
    rw [Nat.mul_assoc, ← hk]
    exact le_trans (Nat.mul_le_mul_left _ hu) (Nat.mul_div_le n d)
  have e : d * (roundDiv n (d * u) * u) = d * u * roundDiv n (d * u) := by ring
  rw [e]
  generalize d * u * roundDiv n (d * u) = x at *
  generalize d * u = y at *
  omega

theorem one_pos : 0 < one := Nat.pow_pos (by decide)

/-- Whole numbers of up to 24 binary digits are numbers of type `f32`. -/
theorem roundF32_whole (us : Nat) (h : us < 2 ^ 24) : roundF32 (us * one) 1 = us * one := by
  unfold roundF32
  dsimp only
  rw [Nat.div_one, Nat.one_mul]
  refine roundDiv_exact _ _ (Nat.pow_pos (by decide)) ?_
  rcases Nat.eq_zero_or_pos us with rfl | h0
  · rw [Nat.zero_mul]; exact dvd_zero _
  have hlt : us * one < 2 ^ (24 + 149) := by
    rw [Nat.pow_add]; exact Nat.mul_lt_mul_of_pos_right h one_pos
  have hlog : Nat.log2 (us * one) < 24 + 149 :=
    (Nat.log2_lt (Nat.mul_pos h0 one_pos).ne').2 hlt
  exact Dvd.dvd.mul_left (Nat.pow_dvd_pow 2 (by omega)) us

/-- The hundredths of a millisecond shown for a number of microseconds. -/
def shownHundredths (us : Nat) : Nat := roundDiv (asMs us * 100) one

theorem near_step (us O f1 f2 h : Nat) (h2 : 2 ^ 24 * f1 ≤ 2 ^ 24 * (1000 * f2) + f1 ∧
      2 ^ 24 * (1000 * f2) ≤ 2 ^ 24 * f1 + f1)
    (h3 : 2 * (f2 * 100) ≤ 2 * (O * h) + O ∧ 2 * (O * h) ≤ 2 * (f2 * 100) + O)
    (h1 : 2 ^ 24 * (us * O) ≤ 2 ^ 24 * f1 + us * O ∧ 2 ^ 24 * f1 ≤ 2 ^ 24 * (us * O) + us * O)
    (hO : 0 < O) :
    2 ^ 48 * (10 * h) ≤ 2 ^ 48 * us + 5 * 2 ^ 48 + (2 ^ 25 + 1) * us ∧
    2 ^ 48 * us ≤ 2 ^ 48 * (10 * h) + 5 * 2 ^ 48 + (2 ^ 25 + 1) * us := by
  have a : 2 ^ 48 * (10 * (O * h)) ≤ 2 ^ 48 * (us * O) + 5 * 2 ^ 48 * O + (2 ^ 25 + 1) * (us * O) ∧
      2 ^ 48 * (us * O) ≤ 2 ^ 48 * (10 * (O * h)) + 5 * 2 ^ 48 * O + (2 ^ 25 + 1) * (us * O) := by
    generalize O * h = x at *
    generalize us * O = y at *
    omega
  refine ⟨Nat.le_of_mul_le_mul_right (c := O) ?_ hO, Nat.le_of_mul_le_mul_right (c := O) ?_ hO⟩
  · refine le_trans (le_of_eq ?_) (le_trans a.1 (le_of_eq ?_)) <;> ring
  · refine le_trans (le_of_eq ?_) (le_trans a.2 (le_of_eq ?_)) <;> ring

theorem near_steps (us : Nat) (h0 : 0 < us) :
    (2 ^ 24 * roundF32 (us * one) 1 ≤ 2 ^ 24 * (1000 * asMs us) + roundF32 (us * one) 1 ∧
      2 ^ 24 * (1000 * asMs us) ≤ 2 ^ 24 * roundF32 (us * one) 1 + roundF32 (us * one) 1) ∧
    (2 * (asMs us * 100) ≤ 2 * (one * shownHundredths us) + one ∧
      2 * (one * shownHundredths us) ≤ 2 * (asMs us * 100) + one) ∧
    (2 ^ 24 * (us * one) ≤ 2 ^ 24 * roundF32 (us * one) 1 + us * one ∧
      2 ^ 24 * roundF32 (us * one) 1 ≤ 2 ^ 24 * (us * one) + us * one) := by
  have ho : 2 ^ 100 ≤ us * one :=
    le_trans (by unfold one; omega) (Nat.mul_le_mul_right one h0)
  have h1 := roundF32_near (us * one) 1 (by decide) (by omega)
  rw [Nat.one_mul] at h1
  have h2 := roundF32_near (roundF32 (us * one) 1) 1000 (by decide) (by omega)
  exact ⟨h2, roundDiv_near _ _ one_pos, h1⟩

theorem shown_zero : shownHundredths 0 = 0 := by decide +kernel

theorem shown_near (us : Nat) :
    2 ^ 48 * (10 * shownHundredths us) ≤ 2 ^ 48 * us + 5 * 2 ^ 48 + (2 ^ 25 + 1) * us ∧
    2 ^ 48 * us ≤ 2 ^ 48 * (10 * shownHundredths us) + 5 * 2 ^ 48 + (2 ^ 25 + 1) * us := by
  rcases Nat.eq_zero_or_pos us with rfl | h0
  · rw [shown_zero]; omega
  obtain ⟨h2, h3, h1⟩ := near_steps us h0
  exact near_step us one _ _ _ h2 h3 h1 one_pos

theorem shown_nearest (us : Nat) (h : us < 2 ^ 24) :
    10 * shownHundredths us ≤ us + 5 ∧ us ≤ 10 * shownHundredths us + 5 := by
  rcases Nat.eq_zero_or_pos us with rfl | h0
  · rw [shown_zero]; omega
  obtain ⟨h2, h3, -⟩ := near_steps us h0
  rw [roundF32_whole us h] at h2
  have hus : us * one < 2 ^ 24 * one := Nat.mul_lt_mul_of_pos_right h one_pos
  have a : 10 * (one * shownHundredths us) < us * one + 6 * one ∧
      us * one < 10 * (one * shownHundredths us) + 6 * one := by
    generalize one * shownHundredths us = x at *
    generalize us * one = y at *
    generalize one = O at *
    omega
  have l : 10 * shownHundredths us < us + 6 := by
    refine Nat.lt_of_mul_lt_mul_right (a := one) ?_
    refine lt_of_eq_of_lt ?_ (lt_of_lt_of_eq a.1 ?_) <;> ring
  have r : us < 10 * shownHundredths us + 6 := by
    refine Nat.lt_of_mul_lt_mul_right (a := one) ?_
    refine lt_of_lt_of_eq a.2 ?_; ring
  omega

theorem roundDiv_tie (j c : Nat) (hc : 0 < c) : roundDiv ((2 * j + 1) * c) (2 * c) = j + j % 2 := by
  have e : (2 * j + 1) * c = c + 2 * c * j := by ring
  have h1 : (c + 2 * c * j) / (2 * c) = j := by
    rw [Nat.add_mul_div_left _ _ (by omega), Nat.div_eq_of_lt (by omega), Nat.zero_add]
  have h2 : (c + 2 * c * j) % (2 * c) = c := by
    rw [Nat.add_mul_mod_self_left, Nat.mod_eq_of_lt (by omega)]
  unfold roundDiv
  dsimp only
  rw [e, h1, h2, if_neg (by omega), if_pos rfl]

/-- An eighth of a millisecond is a number of type `f32`. -/
theorem asMs_eighths (k : Nat) (h : 125 * k < 2 ^ 24) : asMs (125 * k) = k * 2 ^ 146 := by
  unfold asMs
  rw [roundF32_whole _ h]
  have e : 125 * k * one = 1000 * (k * 2 ^ 146) := by
    rw [show one = 2 ^ 3 * 2 ^ 146 from by rw [← Nat.pow_add]; rfl]; ring
  rw [e]
  unfold roundF32
  dsimp only
  rw [Nat.mul_div_cancel_left _ (by decide)]
  have hd : 2 ^ (Nat.log2 (k * 2 ^ 146) - 23) ∣ k * 2 ^ 146 := by
    rcases Nat.eq_zero_or_pos k with rfl | h0
    · rw [Nat.zero_mul]; exact dvd_zero _
    have hlt : k * 2 ^ 146 < 2 ^ (18 + 146) := by
      rw [Nat.pow_add]; exact Nat.mul_lt_mul_of_pos_right (by omega) (Nat.pow_pos (by decide))
    have hlog : Nat.log2 (k * 2 ^ 146) < 18 + 146 :=
      (Nat.log2_lt (Nat.mul_pos h0 (Nat.pow_pos (by decide))).ne').2 hlt
    exact Dvd.dvd.mul_left (Nat.pow_dvd_pow 2 (by omega)) k
  have hp : 0 < 2 ^ (Nat.log2 (k * 2 ^ 146) - 23) := Nat.pow_pos (by decide)
  generalize 2 ^ (Nat.log2 (k * 2 ^ 146) - 23) = u at *
  generalize k * 2 ^ 146 = y at *
  have h1 := roundDiv_exact (1000 * y) (1000 * u) (by omega) (Nat.mul_dvd_mul_left _ hd)
  refine Nat.eq_of_mul_eq_mul_left (show 0 < 1000 by decide) (Eq.trans ?_ h1)
  ring

theorem shown_tie (k : Nat) (h : 125 * k < 2 ^ 24) (hk : k % 2 = 1) :
    shownHundredths (125 * k) % 2 = 0 := by
  unfold shownHundredths
  rw [asMs_eighths k h]
  obtain ⟨j, hj⟩ : ∃ j, 25 * k = 2 * j + 1 := ⟨25 * k / 2, by omega⟩
  have e : k * 2 ^ 146 * 100 = (2 * j + 1) * 2 ^ 148 := by
    rw [← hj, show (2 : Nat) ^ 148 = 2 ^ 146 * 4 from by rw [show 148 = 146 + 2 from rfl, Nat.pow_add]]
    ring
  rw [e, show one = 2 * 2 ^ 148 from by rw [← Nat.pow_succ']; rfl,
    roundDiv_tie j _ (Nat.pow_pos (by decide))]
  omega

theorem ms_eq (us : Int) : ms us = (if us < 0 then ['-'] else []) ++
    hundredths (shownHundredths us.natAbs) ++ ['m', 's'] := by
  have e : fixed2 (asMs us.natAbs) = hundredths (shownHundredths us.natAbs) := by
    unfold fixed2 shownHundredths
    exact congrArg hundredths (Eq.refl _)
  unfold ms
  rw [e]

theorem ms_shows (us : Int) : ShowsMs (ms us) (us < 0) (shownHundredths us.natAbs) := by
  rw [ms_eq]
  generalize shownHundredths us.natAbs = h
  refine ⟨hundredths h, hundredths_shows h, ?_⟩
  by_cases h : us < 0
  · rw [if_pos h, if_pos (decide_eq_true h)]
  · rw [if_neg h, if_neg (by simpa using h)]

/-! ## C74 -/

/-- The time `us`, in microseconds, is shown in milliseconds as the nearest hundredth: no hundredth is
closer. -/
def ShownToNearest (t : List Char) (us : Int) : Prop :=
  ∃ h, ShowsMs t (us < 0) h ∧ ∀ h' : Nat,
    ((10 * h : Int) - us.natAbs).natAbs ≤ ((10 * h' : Int) - us.natAbs).natAbs

theorem ms_nearest (us : Int) (h : us.natAbs < 2 ^ 24) : ShownToNearest (ms us) us := by
  refine ⟨_, ms_shows us, fun h' => ?_⟩
  have := shown_nearest us.natAbs h
  generalize shownHundredths us.natAbs = x at *
  generalize us.natAbs = y at *
  omega

/-- Below 2^24 microseconds, times are shown to the nearest hundredth of a millisecond. -/
theorem C74_duration (d : Duration) (h : d.asUs.toInt.natAbs < 2 ^ 24) :
    ShownToNearest (Text.duration d) d.asUs.toInt := ms_nearest _ h

example : ShownToNearest (Text.duration ⟨1234567⟩) 1234567 := C74_duration ⟨1234567⟩ (by decide)

/-- The same for points in time. -/
theorem C74_instant (i : Instant) (h : i.asUs.toInt.natAbs < 2 ^ 24) :
    ShownToNearest (Text.instant i) i.asUs.toInt := ms_nearest _ h

example : ShownToNearest (Text.instant ⟨-16777215⟩) (-16777215) := C74_instant ⟨-16777215⟩ (by decide)

/-- Whatever the time, it is shown as a number of hundredths of a millisecond, and what is shown is off
by at most half a hundredth and a fraction 2^-23 + 2^-48 of the time. -/
theorem C74_all (d : Duration) : ∃ h : Nat, ShowsMs (Text.duration d) (d.asUs.toInt < 0) h ∧
    2 ^ 48 * ((10 * h : Int) - d.asUs.toInt.natAbs).natAbs ≤
      5 * 2 ^ 48 + (2 ^ 25 + 1) * d.asUs.toInt.natAbs := by
  refine ⟨shownHundredths d.asUs.toInt.natAbs, ms_shows _, ?_⟩
  have := shown_near d.asUs.toInt.natAbs
  generalize shownHundredths d.asUs.toInt.natAbs = h at *
  generalize d.asUs.toInt.natAbs = n at *
  omega

/-- An odd number of eighths of a millisecond is half way between two hundredths: the even one is
shown. -/
theorem C74_ties (d : Duration) (k : Nat) (h : d.asUs.toInt.natAbs = 125 * k) (hk : k % 2 = 1)
    (hlt : 125 * k < 2 ^ 24) : ∃ h : Nat, ShowsMs (Text.duration d) (d.asUs.toInt < 0) h ∧ h % 2 = 0 ∧
    ((10 * h : Int) - d.asUs.toInt.natAbs).natAbs = 5 := by
  refine ⟨shownHundredths d.asUs.toInt.natAbs, ms_shows _, ?_⟩
  have h1 := shown_nearest d.asUs.toInt.natAbs (by omega)
  have h2 := shown_tie k hlt hk
  rw [← h] at h2
  refine ⟨h2, ?_⟩
  generalize shownHundredths d.asUs.toInt.natAbs = x at *
  generalize d.asUs.toInt.natAbs = y at *
  omega

/-- 0.375 ms is shown as 0.38 ms. -/
example := C74_ties ⟨375⟩ 3 rfl rfl (by decide)

/-- A time below 2^24 microseconds. -/
def Small (d : Duration) : Prop := d.asUs.toInt.natAbs < 2 ^ 24

theorem small_of_lt {x : BitVec 64} (h : x.toNat < 2 ^ 24) : Small (.fromUs x) := by
  have e : x.toInt = x.toNat := BitVec.toInt_eq_toNat_of_lt (by omega)
  show x.toInt.natAbs < 2 ^ 24
  rw [e, Int.natAbs_natCast]; exact h

theorem durAt_small {d : Bytes} {i : Nat} {t : Duration} (h : TschTimeslot.durAt d i = .ok t) :
    Small t := by
  unfold TschTimeslot.durAt at h
  simp only [bind_eq_ok, ok.injEq] at h
  obtain ⟨-, -, -, -, a, -, b, -, rfl⟩ := h
  refine small_of_lt ?_
  rw [BitVec.toNat_setWidth]
  have := (u16le a b).isLt
  omega

theorem dur24At_small {d : Bytes} {i : Nat} {t : Duration} (h : TschTimeslot.dur24At d i = .ok t) :
    Small t := by
  unfold TschTimeslot.dur24At at h
  simp only [bind_eq_ok, ok.injEq] at h
  obtain ⟨-, -, -, -, a, -, b, -, c, -, rfl⟩ := h
  refine small_of_lt ?_
  have e : (u32le a b c 0).toNat < 2 ^ 24 := by
    rw [u32le_toNat]
    have := a.isLt; have := b.isLt; have := c.isLt
    have : (0 : Byte).toNat = 0 := rfl
    omega
  rw [BitVec.toNat_setWidth]
  omega

/-- All times of a timeslot are small. -/
def SmallTimings (t : TschTimeslotTimings) : Prop :=
  Small t.ccaOffset ∧ Small t.cca ∧ Small t.txOffset ∧ Small t.rxOffset ∧ Small t.txAckDelay ∧
  Small t.rxAckDelay ∧ Small t.rxWait ∧ Small t.ackWait ∧ Small t.rxTx ∧ Small t.maxAck ∧
  Small t.maxTx ∧ Small t.timeslotLength

theorem timings_small {d : Bytes} {t : TschTimeslotTimings} (h : TschTimeslot.timeslotTimings d = .ok t) :
    SmallTimings t := by
  unfold TschTimeslot.timeslotTimings at h
  obtain ⟨i, -, h⟩ := bind_eq_ok.1 h
  split at h
  · cases h
    unfold SmallTimings Small
    decide
  · simp only [bind_eq_ok] at h
    obtain ⟨t1, h1, t2, h2, t3, h3, t4, h4, t5, h5, t6, h6, t7, h7, t8, h8, t9, h9, t10, h10, h⟩ := h
    split at h
    all_goals
      obtain ⟨t11, h11, h⟩ := bind_eq_ok.1 h
      try split at h
    all_goals
      obtain ⟨t12, h12, h⟩ := bind_eq_ok.1 h
      cases h
    all_goals
      refine ⟨durAt_small h1, durAt_small h2, durAt_small h3, durAt_small h4, durAt_small h6,
        durAt_small h5, durAt_small h7, durAt_small h8, durAt_small h9, durAt_small h10, ?_, ?_⟩
    all_goals first
      | exact durAt_small h11
      | exact dur24At_small h11
      | exact durAt_small h12
      | exact dur24At_small h12

/-- Every time in an information element is shown to the nearest hundredth: a time correction, and each
of the timings of a timeslot. -/
theorem C74_elements (d : Bytes) :
    (∀ t, TimeCorrection.new d = .ok d → TimeCorrection.timeCorrection d = .ok t →
      ShownToNearest (Text.duration t) t.asUs.toInt) ∧
    (∀ t, TschTimeslot.timeslotTimings d = .ok t →
      ∀ x ∈ [t.ccaOffset, t.cca, t.txOffset, t.rxOffset, t.txAckDelay, t.rxAckDelay, t.rxWait, t.ackWait,
        t.rxTx, t.maxAck, t.maxTx, t.timeslotLength], ShownToNearest (Text.duration x) x.asUs.toInt) := by
  constructor
  · intro t hn h
    have h2 : 2 ≤ d.length := by
      by_contra hc
      rw [C20_short d (by omega)] at hn
      cases hn
    obtain ⟨-, t', n, e, -, a, b⟩ := C20_reader_range d h2
    rw [h] at e
    cases e
    exact C74_duration t (by omega)
  · intro t h x hx
    obtain ⟨h1, h2, h3, h4, h5, h6, h7, h8, h9, h10, h11, h12⟩ := timings_small h
    refine C74_duration x ?_
    simp only [List.mem_cons, List.not_mem_nil, or_false] at hx
    rcases hx with rfl | rfl | rfl | rfl | rfl | rfl | rfl | rfl | rfl | rfl | rfl | rfl <;> assumption

/-- Beyond, the nearest hundredth is not always shown: 32768.014 ms are shown as 32768.02 ms. -/
theorem C74_beyond : Text.duration ⟨32768014⟩ = "32768.02ms".toList := by decide +kernel

/-- Examples: times that are not whole hundredths, negative times, a time that is rounded to zero. -/
example : Text.duration ⟨1234567⟩ = "1234.57ms".toList ∧ Text.duration ⟨-2048⟩ = "-2.05ms".toList ∧
    Text.duration ⟨125⟩ = "0.12ms".toList ∧ Text.duration ⟨-4⟩ = "-0.00ms".toList ∧
    Text.instant ⟨16777215⟩ = "16777.21ms".toList := by decide +kernel

end Dot15d4.Props
