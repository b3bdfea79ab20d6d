import Verif.Spec.CsmaTransmit

/-!
# Unslotted CSMA-CA as the standard has it

IEEE 802.15.4, 6.2.5.1 (figure "CSMA-CA algorithm", unslotted branch).
-/

namespace Dot15d4.Spec
open Dot15d4 Props Csma

/-- What the algorithm does: it waits (in microseconds), or assesses the channel, which is clear or
not. -/
inductive CsmaStep where
  | wait (us : Nat)
  | assess (clear : Bool)
  deriving DecidableEq

/-- What a device did in terms of the algorithm. -/
def csmaStep : TxEvent → Option CsmaStep
  | .pause us => some (.wait us.toNat)
  | .result clear => some (.assess clear)
  | _ => none

/-- The standard's unslotted CSMA-CA with the attributes `maxBe` (macMaxBE) and `maxBackoffs`
(macMaxCsmaBackoffs) and `unit` (the unit backoff period in microseconds), from the point where the
number of backoffs is `nb` and the backoff exponent `be`: the steps and whether it ends with success.

Delay for random(2^BE - 1) unit backoff periods; perform CCA; if the channel is idle: success; if
not: NB = NB + 1, BE = min(BE + 1, macMaxBE); if NB > macMaxCsmaBackoffs: failure; else again. -/
inductive StdCsma (maxBe maxBackoffs unit : Nat) : (nb be : Nat) → List CsmaStep → Bool → Prop where
  | success {nb be p : Nat} : p ≤ 2 ^ be - 1 →
      StdCsma maxBe maxBackoffs unit nb be [.wait (unit * p), .assess true] true
  | failure {nb be p : Nat} : p ≤ 2 ^ be - 1 → nb + 1 > maxBackoffs →
      StdCsma maxBe maxBackoffs unit nb be [.wait (unit * p), .assess false] false
  | again {nb be p : Nat} {l : List CsmaStep} {ok : Bool} : p ≤ 2 ^ be - 1 → nb + 1 ≤ maxBackoffs →
      StdCsma maxBe maxBackoffs unit (nb + 1) (min (be + 1) maxBe) l ok →
      StdCsma maxBe maxBackoffs unit nb be (.wait (unit * p) :: .assess false :: l) ok

end Dot15d4.Spec
