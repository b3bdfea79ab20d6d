import Verif.Rust

/-!
# The build script (dot15d4/build.rs)

Strings are lists of characters.  The `HashMap` is the list of its entries; wherever the script iterates
over it the order is arbitrary, which is the parameter `order`.  `std::env::vars()` iterates over the
environment in whatever order it has and panics at an entry that is not Unicode.  Simplified: writing
the output file cannot fail; the script's result is what it prints and the contents of the file.
-/

namespace Dot15d4.Build

/-- `str`. -/
abbrev Text := List Char

/-- A configuration constant: name, type and default value (dot15d4/build.rs:7-8). -/
structure Config where
  name : Text
  ty : Text
  default : Text
  deriving DecidableEq

/-- The table of configuration constants, dot15d4/build.rs:8-29. -/
def configs : List Config := [
  ⟨"MAC_MIN_BE".toList, "u16".toList, "0".toList⟩,
  ⟨"MAC_MAX_BE".toList, "u16".toList, "8".toList⟩,
  ⟨"MAC_MAX_CSMA_BACKOFFS".toList, "u16".toList, "16".toList⟩,
  ⟨"MAC_UNIT_BACKOFF_DURATION".toList, "Duration".toList,
    "Duration::from_us((UNIT_BACKOFF_PERIOD * SYMBOL_RATE_INV_US) as i64)".toList⟩,
  ⟨"MAC_MAX_FRAME_RETIES".toList, "u16".toList, "3".toList⟩,
  ⟨"CSMA_INTER_FRAME_TIME".toList, "Duration".toList, "Duration::from_us(1000)".toList⟩,
  ⟨"MAC_AIFS_PERIOD".toList, "Duration".toList, "Duration::from_us(1000)".toList⟩,
  ⟨"MAC_SIFS_PERIOD".toList, "Duration".toList, "Duration::from_us(1000)".toList⟩,
  ⟨"MAC_LIFS_PERIOD".toList, "Duration".toList, "Duration::from_us(10_000)".toList⟩,
  ⟨"MAC_PAN_ID".toList, "u16".toList, "0xffff".toList⟩,
  ⟨"MAC_IMPLICIT_BROADCAST".toList, "bool".toList, "false".toList⟩]

/-- An environment variable. -/
inductive Var where
  /-- Name and value are Unicode. -/
  | unicode (name value : Text)
  /-- Name or value is not Unicode. -/
  | other
  deriving DecidableEq

/-- The prefix of the configuration variables, dot15d4/build.rs:34,48. -/
def varPrefix : Text := "DOT15D4_".toList

/-- `str::strip_prefix`, used at dot15d4/build.rs:48. -/
def stripPrefix : Text → Text → Option Text
  | [], s => some s
  | _ :: _, [] => none
  | p :: ps, c :: s => if p = c then stripPrefix ps s else none

/-- `HashMap::remove_entry`, used at dot15d4/build.rs:50. -/
def removeEntry : List Config → Text → Option (Config × List Config)
  | [], _ => none
  | c :: l, name =>
    if c.name = name then some (c, l)
    else (removeEntry l name).map fun r => (r.1, c :: r.2)

/-- `writeln!(data, "pub const {name}: {ty} = {value};")`, dot15d4/build.rs:55,61. -/
def constLine (name ty value : Text) : Text :=
  "pub const ".toList ++ name ++ ": ".toList ++ ty ++ " = ".toList ++ value ++ ";\n".toList

/-- The lines for cargo, dot15d4/build.rs:31-35. -/
def watchLines (keys : List Config) : Text :=
  "cargo:rerun-if-changed=build.rs\n".toList ++
    keys.flatMap fun c => "cargo:rerun-if-env-changed=".toList ++ varPrefix ++ c.name ++ "\n".toList

/-- The preamble of the generated file, dot15d4/build.rs:40-45. -/
def preamble : Text :=
  "use crate::time::Duration;\nuse crate::csma::{SYMBOL_RATE_INV_US, UNIT_BACKOFF_PERIOD};\n".toList

/-- The loop over the environment, dot15d4/build.rs:47-57. -/
def consume : List Config → Text → List Var → Out (List Config × Text)
  | cfg, data, [] => .ok (cfg, data)
  | _, _, .other :: _ => .panic
  | cfg, data, .unicode var value :: vars =>
    match stripPrefix varPrefix var with
    | none => consume cfg data vars
    | some name =>
      match removeEntry cfg name with
      | none => .panic
      | some (c, cfg) => consume cfg (data ++ constLine name c.ty value) vars

/-- `env::var_os("OUT_DIR")`, dot15d4/build.rs:65 (cargo sets it to a Unicode path). -/
def outDir : List Var → Option Text
  | [] => none
  | .other :: l => outDir l
  | .unicode n v :: l => if n = "OUT_DIR".toList then some v else outDir l

/-- What a run of the script leaves behind. -/
structure Output where
  /-- Standard output: instructions for cargo. -/
  stdout : Text
  /-- Contents of `config.rs`. -/
  data : Text
  /-- The directory it is written to. -/
  dir : Text

/-- `main`, dot15d4/build.rs:6-68; `order` is the order in which the hash map is iterated. -/
def main (order : List Config → List Config) (env : List Var) : Out Output := do
  let stdout := watchLines (order configs)
  let (cfg, data) ← consume configs preamble env
  let data := data ++ (order cfg).flatMap fun c => constLine c.name c.ty c.default
  match outDir env with
  | none => .panic
  | some dir => return { stdout, data, dir }

end Dot15d4.Build
