import Verif.Model.CsmaSync
import Verif.Model.Drops
import Verif.Model.Radio

/-!
# The device and the methods of its radio

Model/Csma has one call for each `transmit`/`receive` of dot15d4/src/phy/radio/futures.rs.  Here
those calls are the futures of Model/Radio, made of the methods of an arbitrary implementation of
the trait `Radio`, so that the device acts on such an implementation.
-/

namespace Dot15d4.Csma
open Dot15d4.Sync (OpState RadioOps pollRadio dropRadio)

/-- An implementation of the trait `Radio`, dot15d4/src/phy/radio/mod.rs:8-63 (the methods the
device uses: not `disable`).  `received` is what the buffer given to `prepare_receive` contains. -/
structure RawRadio (E PR OR PT OT W : Type) where
  enable : Sync.Task E Unit W Unit
  prepareReceive : RxConfig → Sync.Task PR Unit W Unit
  receive : Sync.Task OR Unit W Bool
  prepareTransmit : TxConfig → Arr 128 → Sync.Task PT Unit W Unit
  transmit : Sync.Task OT Unit W Bool
  cancel : W → W
  received : W → Arr 128

variable {E PR OR PT OT W : Type}

/-- What `receive(radio, buffer, cfg)` uses of the radio, dot15d4/src/phy/radio/futures.rs:67-84. -/
def RawRadio.rxOps (R : RawRadio E PR OR PT OT W) (cfg : RxConfig) : RadioOps PR OR Unit W :=
  { prepare := R.prepareReceive cfg, operate := R.receive, cancel := R.cancel }

/-- What `transmit(radio, buffer, cfg)` uses of the radio, dot15d4/src/phy/radio/futures.rs:43-60. -/
def RawRadio.txOps (R : RawRadio E PR OR PT OT W) (b : Arr 128) (cfg : TxConfig) :
    RadioOps PT OT Unit W :=
  { prepare := R.prepareTransmit cfg b, operate := R.transmit, cancel := R.cancel }

/-- The future of a `receive` or `transmit` that a task is awaiting. -/
inductive Current (PR OR PT OT : Type) where
  | receive (st : OpState PR OR)
  | transmit (st : OpState PT OT)

/-- The world, and the futures of radio methods that are being awaited.  `stuck`: something happened
that cannot happen in Rust, or such a future panicked. -/
structure WithRadio (E PR OR PT OT W : Type) where
  base : W
  enabling : Option E := none
  current : Tid → Option (Current PR OR PT OT) := fun _ => none
  stuck : Bool := false

namespace WithRadio

/-- A task awaits, or no longer awaits, a future. -/
def set (s : WithRadio E PR OR PT OT W) (i : Tid) (c : Option (Current PR OR PT OT)) :
    WithRadio E PR OR PT OT W :=
  { s with current := fun j => if j = i then c else s.current j }

/-- Poll the future of `receive` (dot15d4/src/phy/radio/futures.rs:67-84), which is in state `st`. -/
def pollReceive (R : RawRadio E PR OR PT OT W) (s : WithRadio E PR OR PT OT W) (i : Tid)
    (cfg : RxConfig) (st : OpState PR OR) : Option (Bool × Arr 128) × WithRadio E PR OR PT OT W :=
  match pollRadio (R.rxOps cfg) () st s.base with
  | .ok (.pending, st, w) => (none, { s with base := w }.set i (some (.receive st)))
  | .ok (.ready b, _, w) => (some (b, R.received w), { s with base := w }.set i none)
  | _ => (none, { s with stuck := true })

/-- Poll the future of `transmit` (dot15d4/src/phy/radio/futures.rs:43-60). -/
def pollTransmit (R : RawRadio E PR OR PT OT W) (s : WithRadio E PR OR PT OT W) (i : Tid)
    (b : Arr 128) (cfg : TxConfig) (st : OpState PT OT) : Option Bool × WithRadio E PR OR PT OT W :=
  match pollRadio (R.txOps b cfg) () st s.base with
  | .ok (.pending, st, w) => (none, { s with base := w }.set i (some (.transmit st)))
  | .ok (.ready r, _, w) => (some r, { s with base := w }.set i none)
  | _ => (none, { s with stuck := true })

/-- Poll the future of `enable` (dot15d4/src/csma/mod.rs:124). -/
def pollEnable (R : RawRadio E PR OR PT OT W) (s : WithRadio E PR OR PT OT W) (st : E) :
    Option Unit × WithRadio E PR OR PT OT W :=
  match R.enable.poll () st s.base with
  | (.pending, st, w) => (none, { s with base := w, enabling := some st })
  | (.ready _, _, w) => (some (), { s with base := w, enabling := none })

/-- The future of a `receive` or `transmit` is dropped. -/
def dropCurrent (s : WithRadio E PR OR PT OT W) (i : Tid) (w : Out W) : WithRadio E PR OR PT OT W :=
  match w with
  | .ok w => { s with base := w }.set i none
  | _ => { s with stuck := true }

/-- An answer of the rest of the world. -/
def lift {A : Type} (s : WithRadio E PR OR PT OT W) (r : Option A × W) :
    Option A × WithRadio E PR OR PT OT W := (r.1, { s with base := r.2 })

end WithRadio

/-- The world with a radio: its methods instead of the calls for it. -/
def radioWorld (R : RawRadio E PR OR PT OT W) (ω : Prog.DropWorld CallAns W) :
    Prog.DropWorld CallAns (WithRadio E PR OR PT OT W) where
  start
    | (i, .radioReceive cfg), s => s.pollReceive R i cfg .unresumed
    | (i, .radioTransmit b cfg), s => s.pollTransmit R i b cfg .unresumed
    | (_, .radioEnable), s => s.pollEnable R R.enable.init
    | (i, .driverTransmit), s => s.lift (ω.start (i, .driverTransmit) s.base)
    | (i, .driverReceived b), s => s.lift (ω.start (i, .driverReceived b) s.base)
    | (i, .driverError e), s => s.lift (ω.start (i, .driverError e) s.base)
    | (i, .yieldNow), s => s.lift (ω.start (i, .yieldNow) s.base)
    | (i, .tryLock), s => s.lift (ω.start (i, .tryLock) s.base)
    | (i, .lock), s => s.lift (ω.start (i, .lock) s.base)
    | (i, .unlock), s => s.lift (ω.start (i, .unlock) s.base)
    | (i, .sendSignal), s => s.lift (ω.start (i, .sendSignal) s.base)
    | (i, .recvSignal), s => s.lift (ω.start (i, .recvSignal) s.base)
    | (i, .rngLock), s => s.lift (ω.start (i, .rngLock) s.base)
    | (i, .rngNext), s => s.lift (ω.start (i, .rngNext) s.base)
    | (i, .rngUnlock), s => s.lift (ω.start (i, .rngUnlock) s.base)
    | (i, .delay us), s => s.lift (ω.start (i, .delay us) s.base)
  poll
    | (i, .radioReceive cfg), s =>
      match s.current i with
      | some (.receive st) => s.pollReceive R i cfg st
      | _ => (none, { s with stuck := true })
    | (i, .radioTransmit b cfg), s =>
      match s.current i with
      | some (.transmit st) => s.pollTransmit R i b cfg st
      | _ => (none, { s with stuck := true })
    | (_, .radioEnable), s =>
      match s.enabling with
      | some st => s.pollEnable R st
      | none => (none, { s with stuck := true })
    | (i, .driverTransmit), s => s.lift (ω.poll (i, .driverTransmit) s.base)
    | (i, .driverReceived b), s => s.lift (ω.poll (i, .driverReceived b) s.base)
    | (i, .driverError e), s => s.lift (ω.poll (i, .driverError e) s.base)
    | (i, .yieldNow), s => s.lift (ω.poll (i, .yieldNow) s.base)
    | (i, .tryLock), s => s.lift (ω.poll (i, .tryLock) s.base)
    | (i, .lock), s => s.lift (ω.poll (i, .lock) s.base)
    | (i, .unlock), s => s.lift (ω.poll (i, .unlock) s.base)
    | (i, .sendSignal), s => s.lift (ω.poll (i, .sendSignal) s.base)
    | (i, .recvSignal), s => s.lift (ω.poll (i, .recvSignal) s.base)
    | (i, .rngLock), s => s.lift (ω.poll (i, .rngLock) s.base)
    | (i, .rngNext), s => s.lift (ω.poll (i, .rngNext) s.base)
    | (i, .rngUnlock), s => s.lift (ω.poll (i, .rngUnlock) s.base)
    | (i, .delay us), s => s.lift (ω.poll (i, .delay us) s.base)
  drop
    | (i, .radioReceive cfg), s =>
      match s.current i with
      | some (.receive st) => s.dropCurrent i (dropRadio (R.rxOps cfg) st s.base)
      | _ => { s with stuck := true }
    | (i, .radioTransmit b cfg), s =>
      match s.current i with
      | some (.transmit st) => s.dropCurrent i (dropRadio (R.txOps b cfg) st s.base)
      | _ => { s with stuck := true }
    | (_, .radioEnable), s =>
      match s.enabling with
      | some st => { s with base := R.enable.drop st s.base, enabling := none }
      | none => { s with stuck := true }
    | e, s => { s with base := ω.drop e s.base }

/-- The surroundings of the tasks, with drops.  Dropping the futures of the mutexes, of the channel
and of `yield_now` does nothing: none of them implements `Drop` (dot15d4/src/sync/mutex.rs:107-143,
channel.rs:108-180, yield_now.rs:5-17). -/
def deviceDropWorld (ω : Prog.DropWorld CallAns W) : Prog.DropWorld CallAns (Shared W) where
  toWorld := deviceWorld ω.toWorld
  drop
    | (_, .tryLock), s => s
    | (_, .lock), s => s
    | (_, .unlock), s => s
    | (_, .sendSignal), s => s
    | (_, .recvSignal), s => s
    | (_, .rngLock), s => s
    | (_, .rngUnlock), s => s
    | (_, .yieldNow), s => s
    | e, s => { s with base := ω.drop e s.base }

end Dot15d4.Csma
