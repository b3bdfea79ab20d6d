import Mathlib.Algebra.Polynomial.Div
import Mathlib.Algebra.Field.ZMod
import Mathlib.Algebra.CharP.Two
import Verif.Rust

/-!
# The frame check sequence of IEEE 802.15.4 (7.2.11)

The bits of the frame, in transmission order (bytes in order, least significant bit first), are the
coefficients of a polynomial over GF(2), the first bit sent being the one of highest degree.  A
frame with its frame check sequence is valid iff its polynomial is divisible by the generator
`x^16 + x^12 + x^5 + 1`.
-/

namespace Dot15d4.Spec
open Polynomial

/-- A bit as an element of GF(2). -/
def gf (b : Bool) : ZMod 2 := if b then 1 else 0

/-- The polynomial of a bit string, first bit of highest degree. -/
noncomputable def bitsPoly : List Bool → (ZMod 2)[X]
  | [] => 0
  | b :: bs => C (gf b) * X ^ bs.length + bitsPoly bs

/-- The eight bits of a byte, least significant first. -/
def byteBits (b : Byte) : List Bool :=
  [b.getLsbD 0, b.getLsbD 1, b.getLsbD 2, b.getLsbD 3, b.getLsbD 4, b.getLsbD 5, b.getLsbD 6,
   b.getLsbD 7]

/-- The bits of a byte string in transmission order. -/
def txBits (l : Bytes) : List Bool := l.flatMap byteBits

/-- The polynomial of a byte string. -/
noncomputable def poly (l : Bytes) : (ZMod 2)[X] := bitsPoly (txBits l)

/-- The generator polynomial. -/
noncomputable def gen : (ZMod 2)[X] := X ^ 16 + X ^ 12 + X ^ 5 + 1

end Dot15d4.Spec
