import Verif.Model.Csma

/-!
# dot15d4/src/csma/mod.rs: the device's mutexes and its signal channel

What `run` (dot15d4/src/csma/mod.rs:121-134) puts around the two tasks: the mutex of the radio, that
of the random number generator, and the channel by which the transmit task asks for the radio, all
as modelled in `Model/Sync.lean`.  The driver, the radio, the timer and the generator itself are the
arbitrary world `ω`.

Both tasks are polled by the same `select`, so there is one waker: `Unit`.
-/

namespace Dot15d4.Csma

/-- The state: that of the outside, the two mutexes (their values are the outside's business), the
channel, and whether the device's waker was called since its last poll. -/
structure Shared (W : Type) where
  base : W
  radio : Sync.Mutex Unit Unit := .new ()
  rng : Sync.Mutex Unit Unit := .new ()
  signal : Sync.Channel Unit Unit := .new
  woken : Bool := false

/-- Wakers were called. -/
def Shared.wake {W : Type} (s : Shared W) (ws : List Unit) : Shared W :=
  { s with woken := s.woken || !ws.isEmpty }

/-- A poll of `self.radio.lock()` (dot15d4/src/sync/mutex.rs:111-143). -/
def Shared.lockRadio {W : Type} (s : Shared W) : Option Unit × Shared W :=
  let (r, ws, m) := s.radio.lockPoll (fun _ _ => true) ()
  let s := { s with radio := m }.wake ws
  match r with
  | .ready _ => (some (), s)
  | .pending => (none, s)

/-- A poll of `rng.lock()`. -/
def Shared.lockRng {W : Type} (s : Shared W) : Option Unit × Shared W :=
  let (r, ws, m) := s.rng.lockPoll (fun _ _ => true) ()
  let s := { s with rng := m }.wake ws
  match r with
  | .ready _ => (some (), s)
  | .pending => (none, s)

/-- A poll of `send_async(())`.  (The channel reads its slot only when it is filled, C37, so the
last case does not occur.) -/
def Shared.sendSignal {W : Type} (s : Shared W) : Option Unit × Shared W :=
  match s.signal.sendAsyncPoll (fun _ _ => true) () () with
  | .ok (.ready _, ws, c) => (some (), { s with signal := c }.wake ws)
  | .ok (.pending, ws, c) => (none, { s with signal := c }.wake ws)
  | _ => (none, s)

/-- A poll of `receive()`.  (The last case does not occur, as above.) -/
def Shared.recvSignal {W : Type} (s : Shared W) : Option Unit × Shared W :=
  match s.signal.receivePoll () with
  | .ok (.ready _, ws, c) => (some (), { s with signal := c }.wake ws)
  | .ok (.pending, ws, c) => (none, { s with signal := c }.wake ws)
  | _ => (none, s)

/-- An answer of the outside. -/
def Shared.lift {W A : Type} (s : Shared W) (r : Option A × W) : Option A × Shared W :=
  (r.1, { s with base := r.2 })

/-- The surroundings of the tasks, given the rest of the world. -/
def deviceWorld {W : Type} (ω : Prog.World CallAns W) : Prog.World CallAns (Shared W) where
  start
    | (_, .tryLock), s =>
      let (r, m) := s.radio.tryLock
      (some (r : Bool), { s with radio := m })
    | (_, .lock), s => s.lockRadio
    | (_, .unlock), s =>
      let (ws, m) := s.radio.guardDrop
      (some (), { s with radio := m }.wake ws)
    | (_, .rngLock), s => s.lockRng
    | (_, .rngUnlock), s =>
      let (ws, m) := s.rng.guardDrop
      (some (), { s with rng := m }.wake ws)
    | (_, .sendSignal), s => s.sendSignal
    | (_, .recvSignal), s => s.recvSignal
    -- dot15d4/src/sync/yield_now.rs: pending once, having called the waker
    | (_, .yieldNow), s => (none, s.wake [()])
    | (i, .driverTransmit), s => s.lift (ω.start (i, .driverTransmit) s.base)
    | (i, .driverReceived b), s => s.lift (ω.start (i, .driverReceived b) s.base)
    | (i, .driverError e), s => s.lift (ω.start (i, .driverError e) s.base)
    | (i, .radioTransmit b cfg), s => s.lift (ω.start (i, .radioTransmit b cfg) s.base)
    | (i, .radioReceive cfg), s => s.lift (ω.start (i, .radioReceive cfg) s.base)
    | (i, .rngNext), s => s.lift (ω.start (i, .rngNext) s.base)
    | (i, .delay us), s => s.lift (ω.start (i, .delay us) s.base)
    | (i, .radioEnable), s => s.lift (ω.start (i, .radioEnable) s.base)
  poll
    -- these return at their first poll
    | (_, .tryLock), s => (none, s)
    | (_, .unlock), s => (none, s)
    | (_, .rngUnlock), s => (none, s)
    | (_, .lock), s => s.lockRadio
    | (_, .rngLock), s => s.lockRng
    | (_, .sendSignal), s => s.sendSignal
    | (_, .recvSignal), s => s.recvSignal
    | (_, .yieldNow), s => (some (), s)
    | (i, .driverTransmit), s => s.lift (ω.poll (i, .driverTransmit) s.base)
    | (i, .driverReceived b), s => s.lift (ω.poll (i, .driverReceived b) s.base)
    | (i, .driverError e), s => s.lift (ω.poll (i, .driverError e) s.base)
    | (i, .radioTransmit b cfg), s => s.lift (ω.poll (i, .radioTransmit b cfg) s.base)
    | (i, .radioReceive cfg), s => s.lift (ω.poll (i, .radioReceive cfg) s.base)
    | (i, .rngNext), s => s.lift (ω.poll (i, .rngNext) s.base)
    | (i, .delay us), s => s.lift (ω.poll (i, .delay us) s.base)
    | (i, .radioEnable), s => s.lift (ω.poll (i, .radioEnable) s.base)

end Dot15d4.Csma
