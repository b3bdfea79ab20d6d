import Verif.Model.DeviceRadio

/-!
# What the radio's methods see of a device
-/

namespace Dot15d4.Spec
open Dot15d4 Csma

/-- Receiving or transmitting. -/
inductive Dir where
  | receive
  | transmit
  deriving DecidableEq, Repr

/-- What a radio is prepared for, and with which arguments. -/
inductive Job where
  | receive (cfg : RxConfig)
  | transmit (b : Arr 128) (cfg : TxConfig)

/-- Receiving or transmitting. -/
def Job.dir : Job → Dir
  | .receive _ => .receive
  | .transmit _ _ => .transmit

/-- What an operation of a radio leads to: a reception to `ok` and what is then in the buffer, a
transmission to `ok`. -/
inductive Answer where
  | received (ok : Bool) (b : Arr 128)
  | transmitted (ok : Bool)

/-- Receiving or transmitting. -/
def Answer.dir : Answer → Dir
  | .received _ _ => .receive
  | .transmitted _ => .transmit

/-- What the tasks of a device ask of the radio. -/
def job : Ev CallAns → Option Job
  | .start (_, .radioReceive cfg) => some (.receive cfg)
  | .start (_, .radioTransmit b cfg) => some (.transmit b cfg)
  | _ => none

/-- What they have asked of it, in order. -/
def jobs (calls : List (Ev CallAns)) : List Job := calls.filterMap job

/-- What the tasks of a device are told. -/
def answer : Ev CallAns → Option Answer
  | .ret (_, .radioReceive _) (r : Bool × Arr 128) => some (.received r.1 r.2)
  | .ret (_, .radioTransmit _ _) (r : Bool) => some (.transmitted r)
  | _ => none

/-- What they have been told, in order. -/
def answers (calls : List (Ev CallAns)) : List Answer := calls.filterMap answer

/-- What happens to the methods of a radio: a poll of the future of `enable`, of `prepare_receive` or
`prepare_transmit` (`prepare…`), of `receive` or `transmit` (`operate…`) is pending or ready, such a
future is dropped before it was ready, and `cancel_current_opperation` is called. -/
inductive RawEv where
  | enablePending
  | enabled
  | enableDropped
  | preparePending (a : Job)
  | prepared (a : Job)
  | prepareDropped (a : Job)
  | operatePending (d : Dir)
  | operated (r : Answer)
  | operateDropped (d : Dir)
  | cancelled

/-- The future of a method, recorded. -/
def logged {σ W A : Type} (f : Sync.Task σ Unit W A) (pending : RawEv) (ready : A → W → RawEv)
    (gone : RawEv) : Sync.Task σ Unit (W × List RawEv) A where
  init := f.init
  poll cx s w :=
    match f.poll cx s w.1 with
    | (.pending, s, w') => (.pending, s, (w', w.2 ++ [pending]))
    | (.ready a, s, w') => (.ready a, s, (w', w.2 ++ [ready a w']))
  drop s w := (f.drop s w.1, w.2 ++ [gone])

/-- The radio `R`, with everything done to it recorded. -/
def recordRadio {E PR OR PT OT W : Type} (R : RawRadio E PR OR PT OT W) :
    RawRadio E PR OR PT OT (W × List RawEv) where
  enable := logged R.enable .enablePending (fun _ _ => .enabled) .enableDropped
  prepareReceive cfg := logged (R.prepareReceive cfg) (.preparePending (.receive cfg))
    (fun _ _ => .prepared (.receive cfg)) (.prepareDropped (.receive cfg))
  receive := logged R.receive (.operatePending .receive)
    (fun ok w => .operated (.received ok (R.received w)))
    (.operateDropped .receive)
  prepareTransmit cfg b := logged (R.prepareTransmit cfg b) (.preparePending (.transmit b cfg))
    (fun _ _ => .prepared (.transmit b cfg)) (.prepareDropped (.transmit b cfg))
  transmit := logged R.transmit (.operatePending .transmit)
    (fun ok _ => .operated (.transmitted ok))
    (.operateDropped .transmit)
  cancel w := (R.cancel w.1, w.2 ++ [.cancelled])
  received w := R.received w.1

/-- The rest of the world, which has nothing to do with the record. -/
def beside {W : Type} (ω : Prog.DropWorld CallAns W) : Prog.DropWorld CallAns (W × List RawEv) where
  start e w := ((ω.start e w.1).1, ((ω.start e w.1).2, w.2))
  poll e w := ((ω.poll e w.1).1, ((ω.poll e w.1).2, w.2))
  drop e w := (ω.drop e w.1, w.2)

/-- The device's surroundings in the beginning, nothing being recorded yet. -/
def atFirst {E PR OR PT OT W : Type} (w : W) : Shared (WithRadio E PR OR PT OT (W × List RawEv)) :=
  { base := { base := (w, []) } }

/-- Between two polls the outside changes, in any way: it has nothing to do with the record. -/
def outsideActs {E PR OR PT OT W : Type} (env : W → W)
    (s : Shared (WithRadio E PR OR PT OT (W × List RawEv))) :
    Shared (WithRadio E PR OR PT OT (W × List RawEv)) :=
  { s with base := { s.base with base := (env s.base.base.1, s.base.base.2) } }

/-- The record of a device's radio. -/
def radioRecord {E PR OR PT OT W : Type}
    (s : Shared (WithRadio E PR OR PT OT (W × List RawEv))) : List RawEv := s.base.base.2

/-- Without the record. -/
def forget {E PR OR PT OT W : Type} (s : Shared (WithRadio E PR OR PT OT (W × List RawEv))) :
    Shared (WithRadio E PR OR PT OT W) :=
  { base :=
      { base := s.base.base.1, enabling := s.base.enabling, current := s.base.current,
        stuck := s.base.stuck }
    radio := s.radio
    rng := s.rng
    signal := s.signal
    woken := s.woken }

/-- As `outsideActs`, without a record. -/
def outsideOnly {E PR OR PT OT W : Type} (env : W → W) (s : Shared (WithRadio E PR OR PT OT W)) :
    Shared (WithRadio E PR OR PT OT W) :=
  { s with base := { s.base with base := env s.base.base } }

/-- What the radio has led to, in order. -/
def outcomes (l : List RawEv) : List Answer := l.filterMap fun
  | .operated r => some r
  | _ => none

/-- A complete operation: the radio is prepared to the end, then operated to the end; or it is
abandoned on the way, and then cancelled, once. -/
inductive Operation (a : Job) : List RawEv → Prop where
  | completed (i j : Nat) (r : Answer) (hr : r.dir = a.dir) : Operation a
      (List.replicate i (.preparePending a) ++ [.prepared a]
        ++ List.replicate j (.operatePending a.dir) ++ [.operated r])
  | notPrepared (i : Nat) (hi : 0 < i) : Operation a
      (List.replicate i (.preparePending a) ++ [.prepareDropped a, .cancelled])
  | notOperated (i j : Nat) (hj : 0 < j) : Operation a
      (List.replicate i (.preparePending a) ++ [.prepared a]
        ++ List.replicate j (.operatePending a.dir) ++ [.operateDropped a.dir, .cancelled])

/-- An operation that is going on. -/
inductive GoingOn (a : Job) : List RawEv → Prop where
  | preparing (i : Nat) (hi : 0 < i) : GoingOn a (List.replicate i (.preparePending a))
  | operating (i j : Nat) (hj : 0 < j) : GoingOn a
      (List.replicate i (.preparePending a) ++ [.prepared a]
        ++ List.replicate j (.operatePending a.dir))

/-- Complete operations, one after the other. -/
inductive Operations : List Job → List RawEv → Prop where
  | none : Operations [] []
  | more {as : List Job} {l : List RawEv} (h : Operations as l) {a : Job} {o : List RawEv}
      (ho : Operation a o) : Operations (as ++ [a]) (l ++ o)

/-- Enabling the radio, which takes any number of polls. -/
def enabling (n : Nat) : List RawEv := List.replicate n .enablePending

/-- What a device that is running may have done to its radio, when its tasks have asked for
`jobs`: it is still enabling it; or it has enabled it, then made these operations, one after the
other, the last of which may be going on. -/
inductive RadioHistory : (jobs : List Job) → List RawEv → Prop where
  | enabling (n : Nat) : RadioHistory [] (enabling n)
  | idle (n : Nat) (as : List Job) (l : List RawEv) (h : Operations as l) :
      RadioHistory as (enabling n ++ [.enabled] ++ l)
  | goingOn (n : Nat) (as : List Job) (l : List RawEv) (h : Operations as l) (a : Job)
      (o : List RawEv) (ho : GoingOn a o) :
      RadioHistory (as ++ [a]) (enabling n ++ [.enabled] ++ l ++ o)

/-- What it may have done when it is gone: no operation is going on. -/
inductive RadioFinished : (jobs : List Job) → List RawEv → Prop where
  | never : RadioFinished [] []
  | enabling (n : Nat) (hn : 0 < n) : RadioFinished [] (enabling n ++ [.enableDropped])
  | enabled (n : Nat) (as : List Job) (l : List RawEv) (h : Operations as l) :
      RadioFinished as (enabling n ++ [.enabled] ++ l)

end Dot15d4.Spec
