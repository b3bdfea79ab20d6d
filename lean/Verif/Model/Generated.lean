import Verif.Model.Build
import Verif.Model.Csma

/-!
# The generated constants (dot15d4/src/csma/user_configurable_constants.rs, dot15d4/src/csma/constants.rs)

The file the build script writes is included in the crate as Rust source
(dot15d4/src/csma/user_configurable_constants.rs:30-34).  `compiled` is what a Rust compiler makes of such a
file, for the expressions listed at `u16Expr`, `boolExpr` and `durationExpr`.  Simplified: Rust has many more
constant expressions, which a user could also put in the environment; here they are not read (`none`).
-/

namespace Dot15d4.Build
open Csma (Consts)

/-! ## dot15d4/src/csma/constants.rs -/

/-- `TURNAROUND_TIME`, dot15d4/src/csma/constants.rs:8. -/
def TURNAROUND_TIME : Nat := 12

/-- `CCA_TIME`, dot15d4/src/csma/constants.rs:10. -/
def CCA_TIME : Nat := 8

/-- `UNIT_BACKOFF_PERIOD`, dot15d4/src/csma/constants.rs:46. -/
def UNIT_BACKOFF_PERIOD : Nat := TURNAROUND_TIME + CCA_TIME

/-- `SYMBOL_RATE`, dot15d4/src/csma/constants.rs:52. -/
def SYMBOL_RATE : Nat := 62500

/-- `SYMBOL_RATE_INV_US`, dot15d4/src/csma/constants.rs:54. -/
def SYMBOL_RATE_INV_US : Nat := 1000000 / SYMBOL_RATE

/-! ## Rust expressions

What the Rust language makes of the values in dot15d4/build.rs:8-29 and their like. -/

/-- The value of a digit. -/
def digit (c : Char) : Option Nat :=
  if '0' ≤ c ∧ c ≤ '9' then some (c.toNat - '0'.toNat)
  else if 'a' ≤ c ∧ c ≤ 'f' then some (c.toNat - 'a'.toNat + 10)
  else if 'A' ≤ c ∧ c ≤ 'F' then some (c.toNat - 'A'.toNat + 10)
  else none

/-- Digits in a base, with underscores between them, after `acc`. -/
def digitsFrom (base : Nat) : Text → Nat → Option Nat
  | [], acc => some acc
  | c :: s, acc =>
    if c = '_' then digitsFrom base s acc
    else match digit c with
      | none => none
      | some d => if d < base then digitsFrom base s (acc * base + d) else none

/-- A Rust integer literal: decimal digits, or `0x` and hexadecimal digits, with underscores anywhere but in
front. -/
def natLit : Text → Option Nat
  | '0' :: 'x' :: s => if s.all (· = '_') then none else digitsFrom 16 s 0
  | c :: s => if c = '_' then none else digitsFrom 10 (c :: s) 0
  | [] => none

/-- A literal of type `u16`. -/
def u16Expr (s : Text) : Option Nat :=
  match natLit s with
  | some n => if n < 65536 then some n else none
  | none => none

/-- A literal of type `bool`. -/
def boolExpr (s : Text) : Option Bool :=
  if s = "true".toList then some true else if s = "false".toList then some false else none

/-- The expression build.rs gives for the unit backoff, dot15d4/build.rs:16. -/
def unitExpr : Text := "Duration::from_us((UNIT_BACKOFF_PERIOD * SYMBOL_RATE_INV_US) as i64)".toList

/-- A constant `Duration`: `Duration::from_us` of a literal of type `i64`, or the expression for the unit
backoff. -/
def durationExpr (s : Text) : Option Duration :=
  if s = unitExpr then some (.fromUs (BitVec.ofNat 64 (UNIT_BACKOFF_PERIOD * SYMBOL_RATE_INV_US)))
  else match stripPrefix "Duration::from_us(".toList s with
    | none => none
    | some t => if t.getLast? = some ')' then
        match natLit t.dropLast with
        | some n => if n < 2 ^ 63 then some (.fromUs (BitVec.ofNat 64 n)) else none
        | none => none
      else none

/-! ## The file -/

/-- The text up to the first occurrence of `sep`, and the text behind it. -/
def splitAtFirst (sep : Text) : Text → Option (Text × Text)
  | [] => if sep = [] then some ([], []) else none
  | c :: s =>
    match stripPrefix sep (c :: s) with
    | some r => some ([], r)
    | none => (splitAtFirst sep s).map fun p => (c :: p.1, p.2)

/-- A `const` item. -/
structure Item where
  name : Text
  ty : Text
  value : Text

/-- One `pub const name: ty = value;` and the rest of the file. -/
def readItem (s : Text) : Option (Item × Text) := do
  let s ← stripPrefix "pub const ".toList s
  let (name, s) ← splitAtFirst ": ".toList s
  let (ty, s) ← splitAtFirst " = ".toList s
  let (value, s) ← splitAtFirst ";\n".toList s
  return (⟨name, ty, value⟩, s)

/-- The `const` items of a file; the first argument bounds their number. -/
def readItems : Nat → Text → Option (List Item)
  | _, [] => some []
  | 0, _ :: _ => none
  | n + 1, s => do
    let (i, s) ← readItem s
    let l ← readItems n s
    return i :: l

/-- The items with a name. -/
def named (items : List Item) (name : Text) : List Item := items.filter fun i => decide (i.name = name)

/-- The value of a constant: it must be there exactly once and have the type. -/
def lookup {α : Type} (items : List Item) (name ty : Text) (read : Text → Option α) : Option α :=
  match named items name with
  | [i] => if i.ty = ty then read i.value else none
  | _ => none

/-- A type and a value of it, as far as they can be read. -/
def readable (ty value : Text) : Bool :=
  if ty = "u16".toList then (u16Expr value).isSome
  else if ty = "Duration".toList then (durationExpr value).isSome
  else if ty = "bool".toList then (boolExpr value).isSome
  else false

/-- The constants of the crate (`Csma.Consts`), from the included file,
dot15d4/src/csma/user_configurable_constants.rs:30-34. -/
def compiled (data : Text) : Option Consts := do
  let s ← stripPrefix preamble data
  let items ← readItems s.length s
  if ¬ items.all (fun i => readable i.ty i.value) then none
  let minBe ← lookup items "MAC_MIN_BE".toList "u16".toList u16Expr
  let maxBe ← lookup items "MAC_MAX_BE".toList "u16".toList u16Expr
  let maxCsmaBackoffs ← lookup items "MAC_MAX_CSMA_BACKOFFS".toList "u16".toList u16Expr
  let unitBackoff ← lookup items "MAC_UNIT_BACKOFF_DURATION".toList "Duration".toList durationExpr
  let maxFrameRetries ← lookup items "MAC_MAX_FRAME_RETIES".toList "u16".toList u16Expr
  let aifs ← lookup items "MAC_AIFS_PERIOD".toList "Duration".toList durationExpr
  let sifs ← lookup items "MAC_SIFS_PERIOD".toList "Duration".toList durationExpr
  let panId ← lookup items "MAC_PAN_ID".toList "u16".toList u16Expr
  let implicitBroadcast ← lookup items "MAC_IMPLICIT_BROADCAST".toList "bool".toList boolExpr
  return { minBe, maxBe, maxCsmaBackoffs, unitBackoff, maxFrameRetries, aifs, sifs,
           panId := BitVec.ofNat 16 panId, implicitBroadcast }

end Dot15d4.Build
