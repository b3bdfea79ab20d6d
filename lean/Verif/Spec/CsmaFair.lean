import Verif.Model.CsmaSync
import Verif.Spec.Protocol

/-!
# Waiting for the radio
-/

namespace Dot15d4.Spec
open Dot15d4 Csma

/-- Does the transmit task wait for the radio?  (It has asked for it, and the receive task has not
yet heard of it.) -/
def WantsRadio {α : Type} (p : Csma.Task α) : Prop := (Tid.tx, Op.sendSignal) ∈ p.waits

/-- What the receive task does with a received frame: pausing and transmitting an acknowledgement,
and handing the frame to the driver. -/
def handling : Csma.Call → Bool
  | (.rx, .delay _) => true
  | (.rx, .radioTransmit _ _) => true
  | (.rx, .driverReceived _) => true
  | _ => false

/-- Does the receive task wait for the outside, handling a received frame? -/
def busy {α : Type} (p : Csma.Task α) : Bool := p.waits.any handling

/-- The transmit task got the radio. -/
def gotRadio : Ev CallAns → Bool
  | .ret (.tx, .tryLock) (r : Bool) => r
  | _ => false

/-- The radio received something for the receive task. -/
def heardSomething : Ev CallAns → Bool
  | .ret (.rx, .radioReceive _) _ => true
  | _ => false

/-- An executor's next poll: the rest of the world has moved on, the device has not been woken
since. -/
def nextPoll {W : Type} (env : W → W) (x : Shared W × List (Ev CallAns)) :
    Shared W × List (Ev CallAns) :=
  ({ x.1 with base := env x.1.base, woken := false }, x.2)

/-- How many of the polls leave the receive task busy. -/
def busyPolls {W α : Type} (ω : Prog.World CallAns W) (fuel : Nat) :
    List (W → W) → Csma.Task α → Shared W × List (Ev CallAns) → Nat
  | [], _, _ => 0
  | env :: sched, p, x =>
    match p.poll (deviceWorld ω).record fuel (nextPoll env x) with
    | (.pending p, x) => (if busy p then 1 else 0) + busyPolls ω fuel sched p x
    | _ => 0

end Dot15d4.Spec
