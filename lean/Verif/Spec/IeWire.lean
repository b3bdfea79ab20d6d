import Verif.Spec.IeCodes

/-!
# The octets of information elements (IEEE 802.15.4-2020, 7.4.1-7.4.4)

How the standard lays out the elements of a frame, independent of the model.
-/

namespace Dot15d4.Spec
open Dot15d4

/-- Two octets, the low one first. -/
def wire16 (n : Nat) : Bytes := [BitVec.ofNat 8 n, BitVec.ofNat 8 (n / 256)]

/-- An element: its identifier (a header element id, a payload group id or a nested sub id) and its
content. -/
structure WireIe where
  id : Nat
  content : Bytes

/-- A header element (7.4.2.1): length in bits 0-6, id in bits 7-14, bit 15 clear. -/
def WireIe.header (e : WireIe) : Bytes := wire16 (e.content.length + 2 ^ 7 * e.id) ++ e.content
/-- A payload element (7.4.3.1): length in bits 0-10, group id in bits 11-14, bit 15 set. -/
def WireIe.payload (e : WireIe) : Bytes :=
  wire16 (e.content.length + 2 ^ 11 * e.id + 2 ^ 15) ++ e.content
/-- A nested element of type short (7.4.4.1): length in bits 0-7, sub id in bits 8-14, bit 15
clear. -/
def WireIe.short (e : WireIe) : Bytes := wire16 (e.content.length + 2 ^ 8 * e.id) ++ e.content
/-- A nested element of type long (7.4.4.1): length in bits 0-10, sub id in bits 11-14, bit 15
set. -/
def WireIe.long (e : WireIe) : Bytes :=
  wire16 (e.content.length + 2 ^ 11 * e.id + 2 ^ 15) ++ e.content

/-- The fields hold the length and the id of a header element; it is not a termination. -/
def WireIe.HeaderFits (e : WireIe) : Prop := e.content.length < 2 ^ 7 ∧ e.id < 0x7e
/-- Likewise for a payload element. -/
def WireIe.PayloadFits (e : WireIe) : Prop := e.content.length < 2 ^ 11 ∧ e.id < 15

/-- Header termination 1 (id 0x7e), header termination 2 (id 0x7f), payload termination (group id
15), all without content. -/
def ht1 : WireIe := ⟨0x7e, []⟩
@[inherit_doc ht1] def ht2 : WireIe := ⟨0x7f, []⟩
@[inherit_doc ht1] def pt : WireIe := ⟨15, []⟩

/-- The octets of several elements. -/
def octets (f : WireIe → Bytes) (l : List WireIe) : Bytes := (l.map f).flatten

end Dot15d4.Spec
