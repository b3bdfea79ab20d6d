import Verif.Model.Addressing
/-!
# Specification of the addressing fields

IEEE 802.15.4-2006 7.2.1.1.5 (for versions 2003/2006) and IEEE 802.15.4-2020 table 7-2.
The addressing fields are the concatenation
`[dst PAN] ++ dst address ++ [src PAN] ++ src address`, least significant octet first.
-/
namespace Dot15d4.Spec
open Dot15d4

/-- Which PAN identifiers are present. -/
structure Pans where
  dst : Bool
  src : Bool
  deriving DecidableEq, Repr

/-- An addressing mode with an address. -/
def hasAddr (m : AddressingMode) : Bool := m == .short || m == .extended

/-- IEEE 802.15.4-2003/2006: at least one address must be present; each present address has its
PAN id, except that compression elides the source PAN id when both are present, and compression
is only allowed when both are present. -/
def pans2006 (dst src : AddressingMode) (comp : Bool) : Option Pans :=
  if hasAddr dst && hasAddr src then some ⟨true, !comp⟩
  else if comp then none
  else if hasAddr dst && src == .absent then some ⟨true, false⟩
  else if hasAddr src && dst == .absent then some ⟨false, true⟩
  else none

/-- IEEE 802.15.4-2020 table 7-2, row by row. -/
def pans2020 (dst src : AddressingMode) (comp : Bool) : Option Pans :=
  match dst, src, comp with
  | .absent, .absent, false => some ⟨false, false⟩
  | .absent, .absent, true => some ⟨true, false⟩
  | .short, .absent, false | .extended, .absent, false => some ⟨true, false⟩
  | .short, .absent, true | .extended, .absent, true => some ⟨false, false⟩
  | .absent, .short, false | .absent, .extended, false => some ⟨false, true⟩
  | .absent, .short, true | .absent, .extended, true => some ⟨false, false⟩
  | .extended, .extended, false => some ⟨true, false⟩
  | .extended, .extended, true => some ⟨false, false⟩
  | .short, .short, false | .short, .extended, false | .extended, .short, false => some ⟨true, true⟩
  | .short, .short, true | .short, .extended, true | .extended, .short, true => some ⟨true, false⟩
  | _, _, _ => none

/-- PAN presence by version. -/
def pans : FrameVersion → AddressingMode → AddressingMode → Bool → Option Pans
  | .v2003, d, s, c => pans2006 d s c
  | .v2006, d, s, c => pans2006 d s c
  | .v2020, d, s, c => pans2020 d s c
  | .unknown, _, _, _ => none

/-- Encoding of an optional PAN id. -/
def panBytes : Option (BitVec 16) → Bytes
  | none => []
  | some p => [BitVec.ofNat 8 p.toNat, BitVec.ofNat 8 (p.toNat / 256)]

/-- Encoding of an address: octets in reverse of the textual order. -/
def addrBytes : Address → Bytes
  | .absent => []
  | .short a => a.1.reverse
  | .extended a => a.1.reverse

/-- Encoding of the addressing fields: concatenation in the order of figure 7-1. -/
def addressing (dp : Option (BitVec 16)) (d : Address) (sp : Option (BitVec 16)) (s : Address) :
    Bytes :=
  panBytes dp ++ addrBytes d ++ panBytes sp ++ addrBytes s

end Dot15d4.Spec
