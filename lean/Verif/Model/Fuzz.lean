import Verif.Model.Repr

/-!
# The fuzz targets (fuzz/fuzz_targets)

`libfuzzer` calls the closure of a target with inputs of its choice; a panic is a crash.  What the
closure returns for the corpus (`Keep` or `Reject`) is modelled as a `Bool`; the emitted buffer is
kept as the result instead of being dropped.
-/

namespace Dot15d4.Fuzz
open Out

/-- The target `frame` (fuzz/fuzz_targets/frame.rs:7-17): `true` for `Corpus::Keep`. -/
def frameTarget (data : Bytes) : Out Bool :=
  if data.length > 127 then .ok false
  else
    match DataFrame.new data with
    | .panic => .panic
    | .err => .ok true
    | .ok frame =>
      match FrameRepr.parse frame with
      | .panic => .panic
      | _ => .ok true

/-- The target `repr` (fuzz/fuzz_targets/repr.rs:7-15): what is in the buffer at the end, if it gets
that far.  Which `FrameRepr`s come from `arbitrary` is in
Model/Arbitrary; here it may be any. -/
def reprTarget (repr : FrameRepr) : Out (Option Bytes) :=
  match repr.validate with
  | .panic => .panic
  | .err => .ok none
  | .ok _ => do
    let len ← repr.bufferLen
    let buffer ← repr.emit (List.replicate len 0)
    .ok (some buffer)

end Dot15d4.Fuzz
