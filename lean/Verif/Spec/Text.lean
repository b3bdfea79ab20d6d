import Mathlib.Data.Int.Basic

/-!
# What numbers look like

Independent of the model: how a text of characters is read.
-/

namespace Dot15d4.Spec

/-- The value of a hexadecimal (or decimal) digit in lower case. -/
def digitValue (c : Char) : Option Nat :=
  if '0' ≤ c ∧ c ≤ '9' then some (c.toNat - '0'.toNat)
  else if 'a' ≤ c ∧ c ≤ 'f' then some (c.toNat - 'a'.toNat + 10)
  else none

/-- `t` is the number `n` in base `b`: digits, most significant first, no superfluous zeros in front. -/
inductive Numeral (b : Nat) : List Char → Nat → Prop where
  | digit (c : Char) (n : Nat) : digitValue c = some n → n < b → Numeral b [c] n
  | more (t : List Char) (m : Nat) (c : Char) (n : Nat) : Numeral b t m → m ≠ 0 →
      digitValue c = some n → n < b → Numeral b (t ++ [c]) (b * m + n)

/-- `t` shows `h` hundredths: a whole number, a point and two digits. -/
def ShowsHundredths (t : List Char) (h : Nat) : Prop :=
  ∃ whole c d i j, t = whole ++ '.' :: c :: [d] ∧ Numeral 10 whole (h / 100) ∧
    digitValue c = some i ∧ digitValue d = some j ∧ i < 10 ∧ j < 10 ∧ h % 100 = 10 * i + j

/-- `t` shows, in milliseconds, a time of `h` hundredths of a millisecond, negative if `neg`. -/
def ShowsMs (t : List Char) (neg : Bool) (h : Nat) : Prop :=
  ∃ t', ShowsHundredths t' h ∧ t = (if neg then ['-'] else []) ++ t' ++ ['m', 's']

end Dot15d4.Spec
