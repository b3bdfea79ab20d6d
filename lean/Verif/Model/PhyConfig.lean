import Verif.Rust

/-!
# dot15d4/src/phy/config.rs
-/

namespace Dot15d4

/-- `Channel`, dot15d4/src/phy/config.rs:4-37. -/
inductive PhyChannel where
  | c11 | c12 | c13 | c14 | c15 | c16 | c17 | c18 | c19 | c20 | c21 | c22 | c23 | c24 | c25 | c26
  deriving DecidableEq, Repr

/-- `TryFrom<i32> for Channel`, dot15d4/src/phy/config.rs:39-63 (`i32` is an integer here). -/
def PhyChannel.tryFrom (value : Int) : Out PhyChannel :=
  match value with
  | 11 => .ok .c11
  | 12 => .ok .c12
  | 13 => .ok .c13
  | 14 => .ok .c14
  | 15 => .ok .c15
  | 16 => .ok .c16
  | 17 => .ok .c17
  | 18 => .ok .c18
  | 19 => .ok .c19
  | 20 => .ok .c20
  | 21 => .ok .c21
  | 22 => .ok .c22
  | 23 => .ok .c23
  | 24 => .ok .c24
  | 25 => .ok .c25
  | 26 => .ok .c26
  | _ => .err

/-- `From<Channel> for u8`, dot15d4/src/phy/config.rs:65-86. -/
def PhyChannel.toU8 : PhyChannel → Byte
  | .c11 => 11
  | .c12 => 12
  | .c13 => 13
  | .c14 => 14
  | .c15 => 15
  | .c16 => 16
  | .c17 => 17
  | .c18 => 18
  | .c19 => 19
  | .c20 => 20
  | .c21 => 21
  | .c22 => 22
  | .c23 => 23
  | .c24 => 24
  | .c25 => 25
  | .c26 => 26

/-- `Default for Channel`, dot15d4/src/phy/config.rs:88-92. -/
def PhyChannel.default : PhyChannel := .c26

/-- `RxConfig` and its derived `Default`, dot15d4/src/phy/config.rs:94-98. -/
structure RxConfig where
  channel : PhyChannel := .default
  deriving DecidableEq, Repr

/-- `TxConfig` and its derived `Default`, dot15d4/src/phy/config.rs:100-105. -/
structure TxConfig where
  channel : PhyChannel := .default
  cca : Bool := false
  deriving DecidableEq, Repr

/-- `TxConfig::default_with_cca`, dot15d4/src/phy/config.rs:108-113. -/
def TxConfig.defaultWithCca : TxConfig := { cca := true }

end Dot15d4
