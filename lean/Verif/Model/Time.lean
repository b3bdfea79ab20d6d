import Verif.Rust

/-!
# Durations and instants (dot15d4-frame/src/time.rs, identical in dot15d4/src/time.rs)

`i64` is `BitVec 64` read as a signed number (`BitVec.toInt`).  The operations of `Duration` and
`Instant` below wrap, as in a release build; `Time.Checked` holds the same operations in a build with
overflow checks (the debug profile), which panic on overflow.
-/

namespace Dot15d4

/-- `i64`. -/
abbrev I64 := BitVec 64

/-- `Duration(i64)`, in microseconds (dot15d4-frame/src/time.rs:24-26). -/
structure Duration where
  us : I64
  deriving DecidableEq, Repr

/-- `Instant { us: i64 }` (dot15d4-frame/src/time.rs:6-10). -/
structure Instant where
  us : I64
  deriving DecidableEq, Repr

namespace Duration

/-- `Duration::from_us` (time.rs:31-34). -/
def fromUs (us : I64) : Duration := ⟨us⟩
/-- `Duration::as_us` (time.rs:36-39). -/
def asUs (d : Duration) : I64 := d.us
/-- `Duration::ZERO` (time.rs:29). -/
def ZERO : Duration := ⟨0⟩
/-- `Sub for Duration` (time.rs:58-64). -/
def sub (a b : Duration) : Duration := fromUs (a.asUs - b.asUs)
/-- `Add<Duration> for Duration` (time.rs:90-96). -/
def add (a b : Duration) : Duration := fromUs (a.asUs + b.asUs)
/-- `Mul<usize> for Duration` (time.rs:66-72); `rhs as i64` on a 64-bit machine. -/
def mul (a : Duration) (n : BitVec 64) : Duration := fromUs (a.asUs * n)
/-- `Div<usize> for Duration` (time.rs:82-88): signed division, panics on a zero divisor (and on
`i64::MIN / -1`, where `rhs as i64` is -1). -/
def div (a : Duration) (n : BitVec 64) : Out Duration :=
  if n = 0 then .panic
  else if a.asUs = BitVec.intMin 64 ∧ n = BitVec.allOnes 64 then .panic
  else .ok (fromUs (a.asUs.sdiv n))

end Duration

namespace Instant

/-- `Instant::from_us` (time.rs:13-16). -/
def fromUs (us : I64) : Instant := ⟨us⟩
/-- `Instant::as_us` (time.rs:18-21). -/
def asUs (d : Instant) : I64 := d.us
/-- `Sub for Instant` (time.rs:42-48). -/
def sub (a b : Instant) : Instant := fromUs (a.asUs - b.asUs)
/-- `Sub<Duration> for Instant` (time.rs:50-56). -/
def subDur (a : Instant) (b : Duration) : Instant := fromUs (a.us - b.asUs)
/-- `Add<Duration> for Instant` (time.rs:74-80). -/
def addDur (a : Instant) (b : Duration) : Instant := fromUs (a.us + b.asUs)

end Instant

/-! ## The same operations in a build with overflow checks -/

namespace Time

/-- `i64` addition with overflow checks (rustc, `-C overflow-checks=on`). -/
def checkedAdd (a b : I64) : Out I64 := if a.saddOverflow b then .panic else .ok (a + b)
/-- `i64` subtraction with overflow checks. -/
def checkedSub (a b : I64) : Out I64 := if a.ssubOverflow b then .panic else .ok (a - b)
/-- `i64` multiplication with overflow checks. -/
def checkedMul (a b : I64) : Out I64 := if a.smulOverflow b then .panic else .ok (a * b)

/-- `Sub for Duration` (time.rs:58-64). -/
def Checked.sub (a b : Duration) : Out Duration := do
  return Duration.fromUs (← checkedSub a.asUs b.asUs)
/-- `Add<Duration> for Duration` (time.rs:90-96). -/
def Checked.add (a b : Duration) : Out Duration := do
  return Duration.fromUs (← checkedAdd a.asUs b.asUs)
/-- `Mul<usize> for Duration` (time.rs:66-72); the cast `rhs as i64` never panics. -/
def Checked.mul (a : Duration) (n : BitVec 64) : Out Duration := do
  return Duration.fromUs (← checkedMul a.asUs n)
/-- `Sub for Instant` (time.rs:42-48). -/
def Checked.subInstant (a b : Instant) : Out Instant := do
  return Instant.fromUs (← checkedSub a.asUs b.asUs)
/-- `Sub<Duration> for Instant` (time.rs:50-56). -/
def Checked.subDur (a : Instant) (b : Duration) : Out Instant := do
  return Instant.fromUs (← checkedSub a.us b.asUs)
/-- `Add<Duration> for Instant` (time.rs:74-80). -/
def Checked.addDur (a : Instant) (b : Duration) : Out Instant := do
  return Instant.fromUs (← checkedAdd a.us b.asUs)

end Time

end Dot15d4
