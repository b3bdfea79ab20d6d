import Verif.Model.PhyConfig
import Mathlib.Tactic.IntervalCases

/-! # C51: channel numbers -/

namespace Dot15d4.Props
open Out

/-- Every channel has a number between 11 and 26, and every such number is that of a channel. -/
theorem C51_numbers :
    (∀ c : PhyChannel, 11 ≤ c.toU8.toNat ∧ c.toU8.toNat ≤ 26) ∧
    ∀ n : Nat, 11 ≤ n → n ≤ 26 → ∃ c : PhyChannel, c.toU8.toNat = n := by
  constructor
  · intro c; cases c <;> decide
  · intro n h1 h2
    interval_cases n
    exacts [⟨.c11, rfl⟩, ⟨.c12, rfl⟩, ⟨.c13, rfl⟩, ⟨.c14, rfl⟩, ⟨.c15, rfl⟩, ⟨.c16, rfl⟩, ⟨.c17, rfl⟩,
      ⟨.c18, rfl⟩, ⟨.c19, rfl⟩, ⟨.c20, rfl⟩, ⟨.c21, rfl⟩, ⟨.c22, rfl⟩, ⟨.c23, rfl⟩, ⟨.c24, rfl⟩,
      ⟨.c25, rfl⟩, ⟨.c26, rfl⟩]

/-- Distinct channels have distinct numbers. -/
theorem C51_distinct (c d : PhyChannel) (h : c.toU8 = d.toU8) : c = d := by
  revert h; cases c <;> cases d <;> decide

example : PhyChannel.c11.toU8 ≠ PhyChannel.c26.toU8 := fun h => absurd (C51_distinct _ _ h) (by decide)

/-- Reading a number, any of the 2^32 an `i32` can hold and indeed any integer: the channel with that
number if there is one, an error if the number is not between 11 and 26, never a panic. -/
theorem C51_read (n : Int) :
    (∀ c, PhyChannel.tryFrom n = .ok c ↔ (c.toU8.toNat : Int) = n) ∧
    (PhyChannel.tryFrom n = .err ↔ n < 11 ∨ 26 < n) ∧
    PhyChannel.tryFrom n ≠ .panic := by
  by_cases h : 11 ≤ n ∧ n ≤ 26
  · obtain ⟨h1, h2⟩ := h
    refine ⟨?_, ?_, ?_⟩
    · interval_cases n <;> intro c <;> cases c <;> decide
    · interval_cases n <;> decide
    · interval_cases n <;> decide
  · have hr : PhyChannel.tryFrom n = .err := by
      unfold PhyChannel.tryFrom
      split
      all_goals first | rfl | omega
    refine ⟨fun c => ?_, ?_, ?_⟩
    · rw [hr]
      constructor
      · intro h; cases h
      · intro h'
        have := C51_numbers.1 c
        omega
    · rw [hr]; simp; omega
    · rw [hr]; simp

/-- What a device that was told nothing uses: channel 26, with clear channel assessment only when asked
for. -/
theorem C51_defaults :
    (∀ c : PhyChannel, ({} : RxConfig).channel = c ↔ c.toU8 = 26) ∧
    ({} : TxConfig).channel = ({} : RxConfig).channel ∧ ({} : TxConfig).cca = false ∧
    TxConfig.defaultWithCca = { ({} : TxConfig) with cca := true } := by
  refine ⟨fun c => ?_, rfl, rfl, rfl⟩
  cases c <;> decide

example : PhyChannel.tryFrom 15 = .ok .c15 ∧ PhyChannel.tryFrom 27 = .err ∧
    PhyChannel.tryFrom (-11) = .err := by decide

end Dot15d4.Props
