import Lean.Elab.Term
import Verif.Model.Text

/-! # C63: the names that are printed -/

namespace Dot15d4.Props

open Lean Elab Term in
/-- The list of the variants of an enumeration, each with its own identifier as a string literal. -/
elab "variants% " t:ident : term => do
  let n ← realizeGlobalConstNoOverload t
  let .inductInfo i ← getConstInfo n | throwError "not an enumeration"
  let items ← i.ctors.mapM fun c => `(($(mkIdent c), $(quote c.getString!)))
  elabTerm (← `([$(items.toArray),*])) none

example : variants% PayloadGroupId = [(.esdu, "esdu"), (.mlme, "mlme"), (.vendorSpecific, "vendorSpecific"),
  (.payloadTermination, "payloadTermination"), (.unknown, "unknown")] := rfl

/-- With a capital letter. -/
def capital (s : String) : List Char :=
  match s.toList with
  | [] => []
  | c :: l => c.toUpper :: l

/-- **C63**, names.  Every variant of these enumerations is printed as its identifier. -/
theorem C63_names :
    (∀ p ∈ variants% HeaderElementId, (Text.headerId p.1).toList = capital p.2) ∧
    (∀ p ∈ variants% PayloadGroupId, (Text.groupId p.1).toList = capital p.2) ∧
    (∀ p ∈ variants% NestedSubIdShort, (Text.shortId p.1).toList = capital p.2) ∧
    (∀ p ∈ variants% NestedSubIdLong, (Text.longId p.1).toList = capital p.2) ∧
    (∀ p ∈ variants% FrameType, (Text.frameType p.1).toList = capital p.2) ∧
    (∀ p ∈ variants% AddressingMode, (Text.mode p.1).toList = capital p.2) ∧
    (∀ p ∈ variants% FrameVersion, p.1 ≠ .unknown →
      (Text.frameVersion p.1).toList = "Ieee802154_".toList ++ (p.2.toList.drop 1)) ∧
    (Text.frameVersion .unknown).toList = capital "unknown" := by
  decide +kernel

example : (Text.shortId .tschTimeslot).toList = "TschTimeslot".toList :=
  C63_names.2.2.1 (.tschTimeslot, "tschTimeslot") (by simp)

end Dot15d4.Props
