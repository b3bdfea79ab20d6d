import Verif.Props.Tsch

/-! # C64: timeslot timings for a guard time -/

namespace Dot15d4.Props
open Out

/-- The twelve timings. -/
inductive Timing where
  | ccaOffset
  | cca
  | txOffset
  | rxOffset
  | rxAckDelay
  | txAckDelay
  | rxWait
  | ackWait
  | rxTx
  | maxAck
  | maxTx
  | timeslotLength
  deriving DecidableEq

/-- The getter of a timing. -/
def timingGet (t : TschTimeslotTimings) : Timing → Duration
  | .ccaOffset => t.ccaOffset
  | .cca => t.cca
  | .txOffset => t.txOffset
  | .rxOffset => t.rxOffset
  | .rxAckDelay => t.rxAckDelay
  | .txAckDelay => t.txAckDelay
  | .rxWait => t.rxWait
  | .ackWait => t.ackWait
  | .rxTx => t.rxTx
  | .maxAck => t.maxAck
  | .maxTx => t.maxTx
  | .timeslotLength => t.timeslotLength

/-- The setter of a timing. -/
def timingSet (t : TschTimeslotTimings) : Timing → Duration → TschTimeslotTimings
  | .ccaOffset => t.setCcaOffset
  | .cca => t.setCca
  | .txOffset => t.setTxOffset
  | .rxOffset => t.setRxOffset
  | .rxAckDelay => t.setRxAckDelay
  | .txAckDelay => t.setTxAckDelay
  | .rxWait => t.setRxWait
  | .ackWait => t.setAckWait
  | .rxTx => t.setRxTx
  | .maxAck => t.setMaxAck
  | .maxTx => t.setMaxTx
  | .timeslotLength => t.setTimeslotLength

/-- The last value a history of setter calls gives a timing, or the value it had. -/
def lastSet (init : Timing → Duration) : List (Timing × Duration) → Timing → Duration
  | [], k => init k
  | (k', v) :: h, k => lastSet (Function.update init k' v) h k

/-- The durations of the standard's default timeslot (2450 MHz), in microseconds, with the receive
window of length `guard` starting at `rx`. -/
def standardTimings (guard rx : Duration) : Timing → Duration
  | .ccaOffset => .fromUs 1800
  | .cca => .fromUs 128
  | .txOffset => .fromUs 2120
  | .rxOffset => rx
  | .rxAckDelay => .fromUs 800
  | .txAckDelay => .fromUs 1000
  | .rxWait => guard
  | .ackWait => .fromUs 400
  | .rxTx => .fromUs 192
  | .maxAck => .fromUs 2400
  | .maxTx => .fromUs 4256
  | .timeslotLength => .fromUs 10000

/-- **C64**, setters: after any history of setter calls every getter returns what was last set, or
else the value before; the id does not change. -/
theorem C64_setters (t : TschTimeslotTimings) (h : List (Timing × Duration)) :
    (∀ k, timingGet (h.foldl (fun t c => timingSet t c.1 c.2) t) k = lastSet (timingGet t) h k) ∧
    (h.foldl (fun t c => timingSet t c.1 c.2) t).id = t.id := by
  induction h generalizing t with
  | nil => exact ⟨fun _ => rfl, rfl⟩
  | cons c h ih =>
    obtain ⟨k', v⟩ := c
    simp only [List.foldl_cons, lastSet]
    have e : timingGet (timingSet t k' v) = Function.update (timingGet t) k' v := by
      funext k; cases k' <;> cases k <;> simp [timingGet, timingSet, Function.update] <;> rfl
    refine ⟨fun k => ?_, ?_⟩
    · rw [(ih _).1, e]
    · rw [(ih _).2]; cases k' <;> rfl

example : timingGet ([(.cca, .fromUs 5), (.rxTx, .fromUs 6), (.cca, .fromUs 7)].foldl
    (fun t c => timingSet t c.1 c.2) TschTimeslotTimings.default) .cca = .fromUs 7 :=
  (C64_setters _ _).1 _

theorem guard_toInt (g : Nat) (h : g < 2 ^ 32) : (BitVec.ofNat 64 g).toInt = g := by
  rw [BitVec.toInt_eq_toNat_cond, BitVec.toNat_ofNat]; split <;> omega

/-- **C64**, construction: `new(id, guard)` gives the standard's timings, with a receive window of
length `guard` that begins half a guard time before the transmission offset. -/
theorem C64_new (id : Byte) (g : Nat) (h : g < 2 ^ 32) :
    (TschTimeslotTimings.new id (.fromUs (.ofNat 64 g))).id = id ∧
    ∃ rx : Duration, rx.asUs.toInt = 2120 - ((g / 2 : Nat) : Int) ∧
      ∀ k, timingGet (TschTimeslotTimings.new id (.fromUs (.ofNat 64 g))) k =
        standardTimings (.fromUs (.ofNat 64 g)) rx k := by
  refine ⟨rfl, (TschTimeslotTimings.new id (.fromUs (.ofNat 64 g))).rxOffset, ?_,
    fun k => by cases k <;> rfl⟩
  · show ((2120 : BitVec 64) - (BitVec.ofNat 64 g).sdiv 2).toInt = _
    have h2 : (2 : BitVec 64).toInt = 2 := by decide
    rw [BitVec.toInt_sub, BitVec.toInt_sdiv, guard_toInt g h, h2]
    have : (2120 : BitVec 64).toInt = 2120 := by decide
    rw [this]
    have e : ((g : Int).tdiv 2).bmod (2 ^ 64) = ((g / 2 : Nat) : Int) := by
      rw [Int.tdiv_eq_ediv_of_nonneg (by omega), Int.bmod_def]; omega
    rw [e, Int.bmod_def]; omega

example : ∃ rx : Duration, rx.asUs.toInt = 2120 - 1100 ∧
    ∀ k, timingGet (TschTimeslotTimings.new 3 (.fromUs 2200)) k = standardTimings (.fromUs 2200) rx k :=
  (C64_new 3 2200 (by decide)).2

/-- **C64**, `Default`: the standard's default timeslot, receive window of 2200 µs from 1020 µs on. -/
theorem C64_default : TschTimeslotTimings.default.id = 0 ∧
    ∀ k, timingGet TschTimeslotTimings.default k = standardTimings (.fromUs 2200) (.fromUs 1020) k :=
  ⟨rfl, fun k => by cases k <;> rfl⟩

/-- The claim: timings made for a guard time that fits its field can be sent. -/
def C64_statement : Prop := ∀ (id : Byte) (g : Nat), id ≠ 0 → g < 2 ^ 16 → ∀ d, d.length = 25 →
  ∃ d', TschTimeslot.setTimeslotTimings d (.new id (.fromUs (.ofNat 64 g))) = .ok d' ∧
    TschTimeslot.timeslotTimings d' = .ok (.new id (.fromUs (.ofNat 64 g)))

theorem new_fits (id : Byte) (g : Nat) (h : g < 4242) :
    TimingsFit (.new id (.fromUs (.ofNat 64 g))) ∧
    timingsSize (.new id (.fromUs (.ofNat 64 g))) = 25 := by
  obtain ⟨-, rx, e, hk⟩ := C64_new id g (by omega)
  have fr : (TschTimeslotTimings.new id (.fromUs (.ofNat 64 g))).rxOffset = rx := hk .rxOffset
  refine ⟨⟨?_, ?_, ?_, ?_, ?_, ?_, ?_, ?_, ?_, ?_, ?_, ?_⟩, ?_⟩
  case refine_4 => rw [fr]; exact ⟨by omega, by omega⟩
  case refine_7 =>
    show 0 ≤ (BitVec.ofNat 64 g).toInt ∧ (BitVec.ofNat 64 g).toInt < 2 ^ 16
    rw [guard_toInt g (by omega)]; omega
  case refine_13 => show (if (4256 : BitVec 64).toInt > 65535 ∨ (10000 : BitVec 64).toInt > 65535 then 27 else 25) = 25; decide
  all_goals (constructor <;> simp [TschTimeslotTimings.new, Duration.fromUs, Duration.asUs])

/-- **C64**, what holds (`_partial`: guard times of 4242 µs and more are excluded): the timings
survive being written and read, for every id but 0, which stands for the default. -/
theorem C64_roundtrip_partial (id : Byte) (g : Nat) (hid : id ≠ 0) (h : g < 4242) (d : Bytes)
    (hd : d.length = 25) :
    ∃ d', TschTimeslot.setTimeslotTimings d (.new id (.fromUs (.ofNat 64 g))) = .ok d' ∧
      d'.length = 25 ∧ TschTimeslot.new d' = .ok d' ∧
      TschTimeslot.timeslotTimings d' = .ok (.new id (.fromUs (.ofNat 64 g))) := by
  obtain ⟨hf, hs⟩ := new_fits id g h
  obtain ⟨d', h1, h2, h3, -, h5⟩ := C22_roundtrip d _ hid hf (hd.trans hs.symm)
  exact ⟨d', h1, h2.trans hd, h3, h5⟩

/-- Nothing read from an element has a negative receive offset. -/
theorem read_rxOffset_nonneg (d : Bytes) (t : TschTimeslotTimings)
    (h : TschTimeslot.timeslotTimings d = .ok t) : 0 ≤ t.rxOffset.asUs.toInt := by
  have hd : ∀ i v, TschTimeslot.durAt d i = .ok v → 0 ≤ v.asUs.toInt := by
    intro i v e
    rw [TschTimeslot.durAt] at e
    obtain ⟨_, -, e⟩ := bind_eq_ok.1 e
    obtain ⟨_, -, e⟩ := bind_eq_ok.1 e
    obtain ⟨b0, -, e⟩ := bind_eq_ok.1 e
    obtain ⟨b1, -, e⟩ := bind_eq_ok.1 e
    cases e
    show 0 ≤ ((u16le b0 b1).setWidth 64).toInt
    rw [BitVec.toInt_eq_toNat_cond, BitVec.toNat_setWidth]
    have := (u16le b0 b1).isLt
    split <;> omega
  rw [TschTimeslot.timeslotTimings] at h
  obtain ⟨i, -, h⟩ := bind_eq_ok.1 h
  split at h
  · cases h; decide
  · obtain ⟨_, -, h⟩ := bind_eq_ok.1 h
    obtain ⟨_, -, h⟩ := bind_eq_ok.1 h
    obtain ⟨_, -, h⟩ := bind_eq_ok.1 h
    obtain ⟨rx, e, h⟩ := bind_eq_ok.1 h
    iterate 6 obtain ⟨_, -, h⟩ := bind_eq_ok.1 h
    dsimp only at h
    split at h <;> (obtain ⟨_, -, h⟩ := bind_eq_ok.1 h; obtain ⟨_, -, h⟩ := bind_eq_ok.1 h; cases h; exact hd _ _ e)

/-- **C64** is false of the code: from a guard time of 4242 µs on the receive offset is negative and
no element can carry it, so nothing reads back as what was written. -/
theorem C64_false : ¬ C64_statement ∧
    ∀ (id : Byte) (g : Nat) (d : Bytes), 4242 ≤ g → g < 2 ^ 32 →
      (TschTimeslotTimings.new id (.fromUs (.ofNat 64 g))).rxOffset.asUs.toInt < 0 ∧
      TschTimeslot.timeslotTimings d ≠ .ok (.new id (.fromUs (.ofNat 64 g))) := by
  have key : ∀ (id : Byte) (g : Nat) (d : Bytes), 4242 ≤ g → g < 2 ^ 32 →
      (TschTimeslotTimings.new id (.fromUs (.ofNat 64 g))).rxOffset.asUs.toInt < 0 ∧
      TschTimeslot.timeslotTimings d ≠ .ok (.new id (.fromUs (.ofNat 64 g))) := by
    intro id g d h1 h2
    obtain ⟨-, rx, e, hk⟩ := C64_new id g h2
    have fr : (TschTimeslotTimings.new id (.fromUs (.ofNat 64 g))).rxOffset = rx := hk .rxOffset
    have hneg : rx.asUs.toInt < 0 := by omega
    refine ⟨by rw [fr]; exact hneg, fun hd => ?_⟩
    have := read_rxOffset_nonneg _ _ hd
    rw [fr] at this; omega
  refine ⟨fun h => ?_, key⟩
  obtain ⟨d', -, e⟩ := h 1 5000 (by decide) (by decide) (List.replicate 25 0) (by simp)
  exact (key 1 5000 d' (by decide) (by decide)).2 e

/-- The default guard time is well within the range. -/
example : ∃ d', TschTimeslot.setTimeslotTimings (List.replicate 25 0) (.new 1 (.fromUs 2200)) = .ok d' ∧
    d'.length = 25 ∧ TschTimeslot.new d' = .ok d' ∧
    TschTimeslot.timeslotTimings d' = .ok (.new 1 (.fromUs 2200)) :=
  C64_roundtrip_partial 1 2200 (by decide) (by decide) _ (by decide)

end Dot15d4.Props
