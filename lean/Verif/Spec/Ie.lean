import Verif.Rust

/-!
# Specification of information element lists, independent of the model

An information element is two descriptor bytes (a little-endian word) followed by a content
whose length is given by a field of the descriptor.
-/

namespace Dot15d4.Spec

/-- Bits `lo .. lo + n - 1` of a word, as a number. -/
def bits (w : BitVec 16) (lo n : Nat) : Nat := (w.toNat / 2 ^ lo) % 2 ^ n

/-- The length field as the code reads it from a header element: bits 1-7, doubled (the
standard says: bits 0-6). -/
def headerLen (w : BitVec 16) : Nat := 2 * bits w 1 7
/-- The length field as the code reads it from a payload element: bits 0-9 (the standard says:
bits 0-10). -/
def payloadLen (w : BitVec 16) : Nat := bits w 0 10
/-- The length field as the code reads it from a nested element: bits 0-9 when the type bit 15
is set, else bits 0-6 (the standard says: 0-10 and 0-7). -/
def nestedLen (w : BitVec 16) : Nat := if bits w 15 1 = 1 then bits w 0 10 else bits w 0 7

/-- A header element terminates the header list when its id (bits 7-14) is 0x7e or 0x7f. -/
def headerStop (w : BitVec 16) : Bool := bits w 7 8 == 0x7e || bits w 7 8 == 0x7f

/-- The descriptor word of an element. -/
def desc : Bytes → BitVec 16
  | b0 :: b1 :: _ => u16le b0 b1
  | _ => 0

/-- `c` is exactly one element: two descriptor bytes and the announced content. -/
def Complete (len : BitVec 16 → Nat) (c : Bytes) : Prop :=
  2 ≤ c.length ∧ c.length = 2 + len (desc c)

end Dot15d4.Spec
