import Verif.Model.Sync

/-!
# Wakers that act at once

`Waker::wake` is code of the executor.  Model/Sync collects the wakers a call wakes, as if they
acted after the call had returned; here the calls of dot15d4/src/sync/mutex.rs and channel.rs are cut
at each `wake()`, and whatever a waker does with the same mutex or channel happens there, before
`wake()` returns.  Not modelled: code run by `Waker::clone`, by the drop of a waker and by the drop
of a message.
-/

namespace Dot15d4.Reenter
open Sync Out

/-! ## channel.rs -/

/-- A call on the channel. -/
inductive ChanOp (W α : Type) where
  /-- `Sender::send`. -/
  | send (m : α)
  /-- A poll of `Sender::send_async`. -/
  | sendAsync (cx : W) (m : α)
  /-- A poll of `Receiver::receive`. -/
  | receive (cx : W)

/-- What a call returns. -/
inductive ChanRes (α : Type) where
  /-- `send` returned whether it replaced a message. -/
  | replaced (b : Bool)
  /-- `send_async` has sent the message. -/
  | sent
  /-- `receive` returned a message. -/
  | received (m : α)
  | pending
  deriving DecidableEq

/-- What is left to do when `wake()` returns. -/
inductive Rest (W : Type) where
  /-- `send` after the first `wake()` (channel.rs:72-75): lines 91-98 follow. -/
  | sendTail
  /-- `send_async` after waking the previous waker (channel.rs:121-126): store the new one. -/
  | store (cx : W)
  /-- Nothing but returning. -/
  | ret

/-- The channel, the calls that are inside a `wake()` (innermost first), and the calls made with
what they return, in the order in which they were made. -/
structure ChanConf (W α : Type) where
  chan : Channel W α
  stack : List (Rest W)
  log : List (ChanOp W α × ChanRes α)

/-- The end of `send` (dot15d4/src/sync/channel.rs:91-98): make the channel ready and wake the
receiver. -/
def sendTail {W α : Type} (c : Channel W α) : Channel W α × List (Rest W) :=
  let c := { c with isReady := true }
  match c.wakerRecv with
  | some _ => ({ c with wakerRecv := none }, [.ret])
  | none => (c, [])

/-- `send` up to its first `wake()`, or to its end (dot15d4/src/sync/channel.rs:54-99); and whether
it will report a replacement. -/
def startSend {W α : Type} (c : Channel W α) (m : α) : Out (Bool × Channel W α × List (Rest W)) :=
  if c.isReady then do
    let _ ← Out.ofSome c.message
    let c := { c with message := some m }
    match c.wakerRecv with
    | some _ => .ok (true, { c with wakerRecv := none }, [.sendTail])
    | none => .ok (true, sendTail c)
  else .ok (false, sendTail { c with message := some m })

/-- A call up to its first `wake()`, or to its end (dot15d4/src/sync/channel.rs:54-99, 108-139,
144-180). -/
def startChan {W α : Type} (willWake : W → W → Bool) (c : Channel W α) :
    ChanOp W α → Out (ChanRes α × Channel W α × List (Rest W))
  | .send m => do
    let (b, c, k) ← startSend c m
    .ok (.replaced b, c, k)
  | .sendAsync cx m =>
    if c.isReady then
      match c.wakerSend with
      | some w =>
        if willWake cx w then .ok (.pending, { c with wakerSend := some cx }, [])
        else .ok (.pending, { c with wakerSend := none }, [.store cx])
      | none => .ok (.pending, { c with wakerSend := some cx }, [])
    else do
      let (_, c, k) ← startSend c m
      .ok (.sent, c, k)
  | .receive cx =>
    if !c.isReady then .ok (.pending, { c with wakerRecv := some cx }, [])
    else do
      let v ← Out.ofSome c.message
      let c := { c with message := none, isReady := false }
      match c.wakerSend with
      | some _ => .ok (.received v, { c with wakerSend := none }, [.ret])
      | none => .ok (.received v, c, [])

/-- What happens next: somebody calls, from within the innermost `wake()` if there is one, or that
`wake()` returns. -/
inductive ChanMove (W α : Type) where
  | call (op : ChanOp W α)
  | back

/-- One move.  `back` outside any `wake()` is nothing. -/
def stepChan {W α : Type} (willWake : W → W → Bool) (s : ChanConf W α) :
    ChanMove W α → Out (ChanConf W α)
  | .call op => do
    let (r, c, k) ← startChan willWake s.chan op
    .ok ⟨c, k ++ s.stack, s.log ++ [(op, r)]⟩
  | .back =>
    match s.stack with
    | [] => .ok s
    | .ret :: st => .ok { s with stack := st }
    | .store cx :: st => .ok { s with chan := { s.chan with wakerSend := some cx }, stack := st }
    | .sendTail :: st =>
      let (c, k) := sendTail s.chan
      .ok { s with chan := c, stack := k ++ st }

/-- Any number of moves. -/
def runChan {W α : Type} (willWake : W → W → Bool) (s : ChanConf W α) :
    List (ChanMove W α) → Out (ChanConf W α)
  | [] => .ok s
  | m :: ms => do
    let s ← stepChan willWake s m
    runChan willWake s ms

/-! ## mutex.rs -/

/-- A call on the mutex. -/
inductive MutexOp (W : Type) where
  | tryLock
  /-- A poll of `lock()`. -/
  | lockPoll (cx : W)
  | guardDrop

/-- What a call returns: whether the lock was obtained. -/
abbrev MutexRes := Option Bool

/-- The mutex; the call that is inside a `wake()`, if any: while there is one, `state` is mutably
borrowed (`Some (some cx)`: a poll of `lock()`, which will store `cx`); and the calls made. -/
structure MutexConf (W V : Type) where
  mutex : Mutex W V
  inWake : Option (Option W)
  log : List (MutexOp W × MutexRes)

/-- A call up to its `wake()`, or to its end, once `borrow_mut` has succeeded
(dot15d4/src/sync/mutex.rs:44-54, 93-105, 111-143). -/
def startMutex {W V : Type} (willWake : W → W → Bool) (m : Mutex W V) :
    MutexOp W → MutexRes × Mutex W V × Option (Option W)
  | .tryLock => (some m.tryLock.1, m.tryLock.2, none)
  | .lockPoll cx =>
    if m.locked then
      match m.waker with
      | some w =>
        if willWake w cx then (some false, { m with waker := some cx }, none)
        else (some false, { m with waker := none }, some (some cx))
      | none => (some false, { m with waker := some cx }, none)
    else (some true, { m with locked := true }, none)
  | .guardDrop =>
    let m := { m with locked := false }
    match m.waker with
    | some _ => (none, { m with waker := none }, some none)
    | none => (none, m, none)

/-- What happens next. -/
inductive MutexMove (W : Type) where
  | call (op : MutexOp W)
  | back

/-- One move.  `RefCell::borrow_mut` panics if the state is borrowed already, which it is until the
`wake()` and the call it is in have returned (dot15d4/src/sync/mutex.rs:45, 95, 115). -/
def stepMutex {W V : Type} (willWake : W → W → Bool) (s : MutexConf W V) :
    MutexMove W → Out (MutexConf W V)
  | .call op =>
    if s.inWake.isSome then .panic
    else
      let (r, m, k) := startMutex willWake s.mutex op
      .ok ⟨m, k, s.log ++ [(op, r)]⟩
  | .back =>
    match s.inWake with
    | none => .ok s
    | some none => .ok { s with inWake := none }
    | some (some cx) => .ok { s with mutex := { s.mutex with waker := some cx }, inWake := none }

/-- Any number of moves. -/
def runMutex {W V : Type} (willWake : W → W → Bool) (s : MutexConf W V) :
    List (MutexMove W) → Out (MutexConf W V)
  | [] => .ok s
  | m :: ms => do
    let s ← stepMutex willWake s m
    runMutex willWake s ms

end Dot15d4.Reenter
