import Verif.Model.Radio
import Verif.Spec.Sync

/-!
# What the radio sees of a transmit/receive future
-/

namespace Dot15d4.Sync

/-- What happens to the radio, in order. -/
inductive RadioEvent where
  /-- the prepare method was polled and is pending / completed -/
  | preparePending | prepared
  /-- the transmit/receive method was polled and is pending / completed with a result -/
  | operatePending | operated (ok : Bool)
  /-- the future of one of those methods was dropped before it completed -/
  | prepareDropped | operateDropped
  /-- `cancel_current_opperation` was called -/
  | cancelled
  deriving DecidableEq, Repr

/-- The radio `ops`, with everything done to it recorded. -/
def RadioOps.record {P O W Ω : Type} (ops : RadioOps P O W Ω) :
    RadioOps P O W (Ω × List RadioEvent) where
  prepare :=
    { init := ops.prepare.init
      poll := fun cx s w =>
        match ops.prepare.poll cx s w.1 with
        | (.pending, s, w') => (.pending, s, (w', w.2 ++ [.preparePending]))
        | (.ready a, s, w') => (.ready a, s, (w', w.2 ++ [.prepared]))
      drop := fun s w => (ops.prepare.drop s w.1, w.2 ++ [.prepareDropped]) }
  operate :=
    { init := ops.operate.init
      poll := fun cx s w =>
        match ops.operate.poll cx s w.1 with
        | (.pending, s, w') => (.pending, s, (w', w.2 ++ [.operatePending]))
        | (.ready a, s, w') => (.ready a, s, (w', w.2 ++ [.operated a]))
      drop := fun s w => (ops.operate.drop s w.1, w.2 ++ [.operateDropped]) }
  cancel := fun w => (ops.cancel w.1, w.2 ++ [.cancelled])

/-- Poll the future of `transmit`/`receive` until it is ready or the schedule ends. -/
def driveRadio {P O W Ω : Type} (ops : RadioOps P O W Ω) :
    List (W × (Ω → Ω)) → OpState P O → Ω → Out (Option Bool × OpState P O × Ω)
  | [], s, w => .ok (none, s, w)
  | (cx, env) :: sched, s, w => do
    match ← pollRadio ops cx s (env w) with
    | (.ready a, s, w) => pure (some a, s, w)
    | (.pending, s, w) => driveRadio ops sched s w

/-- What the radio may see in `n` polls, the result of the future, and what it sees when the future
is then dropped. -/
inductive RadioRun (n : Nat) : Option Bool → List RadioEvent → List RadioEvent → Prop where
  /-- never polled: the radio sees nothing, not even when the future is dropped -/
  | untouched (hn : n = 0) : RadioRun n none [] []
  /-- abandoned while preparing: cancelled once -/
  | preparing (hn : 0 < n) :
      RadioRun n none (List.replicate n .preparePending) [.prepareDropped, .cancelled]
  /-- abandoned while transmitting/receiving: cancelled once -/
  | operating (i j : Nat) (hj : 0 < j) (hn : i + j = n) :
      RadioRun n none
        (List.replicate i .preparePending ++ [.prepared] ++ List.replicate j .operatePending)
        [.operateDropped, .cancelled]
  /-- completed: the result is that of the radio's method, and nothing is cancelled -/
  | completed (i j : Nat) (b : Bool) (hn : i + j < n) :
      RadioRun n (some b)
        (List.replicate i .preparePending ++ [.prepared] ++ List.replicate j .operatePending
          ++ [.operated b]) []

end Dot15d4.Sync
