import Verif.Rust

/-!
# dot15d4/src/sync: mutex, channel, select, join, yield_now

A poll is a function from the future's state and the shared state to `Poll`, the new states and
the list of wakers whose `wake` was called, in order.  Wakers are an arbitrary type `W` with the
result of `Waker::will_wake` as a boolean function (`core::task::Waker`, not modelled further).
-/

namespace Dot15d4.Sync

/-- `core::task::Poll`. -/
inductive Poll (α : Type u) where
  | pending
  | ready (a : α)
  deriving DecidableEq, Repr

/-- `Either`, dot15d4/src/sync/mod.rs:13-18. -/
inductive Either (α : Type u) (β : Type v) where
  | first (a : α)
  | second (b : β)
  deriving DecidableEq, Repr

/-- `Either::is_first`, dot15d4/src/sync/mod.rs:21-23. -/
def Either.isFirst {α : Type u} {β : Type v} : Either α β → Bool
  | .first _ => true
  | .second _ => false

/-- `Either::is_second`, dot15d4/src/sync/mod.rs:25-27. -/
def Either.isSecond {α : Type u} {β : Type v} : Either α β → Bool
  | .first _ => false
  | .second _ => true

/-! ## mutex.rs -/

/-- `Mutex` with its `MutexState`, dot15d4/src/sync/mutex.rs:10-22.  The `RefCell` around the
state is borrowed only inside the function bodies below, so it is not modelled; `wake()` is called
while it is borrowed, which is only harmless because a waker does not poll synchronously. -/
structure Mutex (W V : Type) where
  value : V
  locked : Bool
  waker : Option W

/-- `Mutex::new`, dot15d4/src/sync/mutex.rs:25-34. -/
def Mutex.new {W V : Type} (value : V) : Mutex W V where
  value := value
  locked := false
  waker := none

/-- `Mutex::try_lock`, dot15d4/src/sync/mutex.rs:44-54; `true` stands for `Some(MutexGuard)`. -/
def Mutex.tryLock {W V : Type} (m : Mutex W V) : Bool × Mutex W V :=
  if !m.locked then (true, { m with locked := true }) else (false, m)

/-- The waker bookkeeping of a poll that has to wait, dot15d4/src/sync/mutex.rs:119-132. -/
def replaceWaker {W : Type} (willWake : W → W → Bool) (old : Option W) (cx : W) :
    List W × Option W :=
  match old with
  | some w => if willWake w cx then ([], some cx) else ([w], some cx)
  | none => ([], some cx)

/-- `LockFuture::poll`, dot15d4/src/sync/mutex.rs:111-143, which is also the poll of
`Mutex::lock` (mutex.rs:36-42): the guard is built in the poll in which the lock is taken, so
`ready ()` stands for `Ready(MutexGuard)`. -/
def Mutex.lockPoll {W V : Type} (willWake : W → W → Bool) (m : Mutex W V) (cx : W) :
    Poll Unit × List W × Mutex W V :=
  if m.locked then
    let (woken, w) := replaceWaker willWake m.waker cx
    (.pending, woken, { m with waker := w })
  else
    (.ready (), [], { m with locked := true })

/-- `MutexGuard::drop`, dot15d4/src/sync/mutex.rs:93-105. -/
def Mutex.guardDrop {W V : Type} (m : Mutex W V) : List W × Mutex W V :=
  (m.waker.toList, { m with locked := false, waker := none })

/-- `MutexGuard::deref_mut` followed by a write, dot15d4/src/sync/mutex.rs:86-91. -/
def Mutex.guardWrite {W V : Type} (m : Mutex W V) (v : V) : Mutex W V := { m with value := v }

/-- `MutexGuard::deref`, dot15d4/src/sync/mutex.rs:77-84: the value, read through a guard. -/
def Mutex.guardRead {W V : Type} (m : Mutex W V) : V := m.value

/-- `Mutex::get_mut` followed by a write, dot15d4/src/sync/mutex.rs:56-61: exclusive access to the
mutex gives access to the value without looking at the lock. -/
def Mutex.getMutWrite {W V : Type} (m : Mutex W V) (v : V) : Mutex W V := { m with value := v }

/-- `Mutex::get_mut` followed by a read (dot15d4/src/sync/mutex.rs:56-61), and `Mutex::read`
(mutex.rs:63-69). -/
def Mutex.read {W V : Type} (m : Mutex W V) : V := m.value

/-! ## channel.rs -/

/-- `Channel` with its `ChannelState`, dot15d4/src/sync/channel.rs:10-19.  `message` is the
`MaybeUninit` slot: `none` is uninitialised or moved-out memory, and reading or dropping it is
undefined behaviour, modelled as `.panic`. -/
structure Channel (W α : Type) where
  message : Option α
  isReady : Bool
  wakerRecv : Option W
  wakerSend : Option W

/-- `Channel::new`, dot15d4/src/sync/channel.rs:22-31. -/
def Channel.new {W α : Type} : Channel W α where
  message := none
  isReady := false
  wakerRecv := none
  wakerSend := none

/-- The messages whose destructor runs when a channel is dropped (dot15d4/src/sync/channel.rs:16-19):
the slot is a `MaybeUninit`, which never drops its content, and `Channel` has no `Drop` of its
own. -/
def Channel.dropped {W α : Type} (_ : Channel W α) : List α := []

/-- `Channel::split`, dot15d4/src/sync/channel.rs:33-36: the channel is overwritten with `new()`,
which drops the old one.  The result is the list of messages destroyed and the channel. -/
def Channel.split {W α : Type} (c : Channel W α) : List α × Channel W α :=
  (c.dropped, Channel.new)

/-- What a `send` did: whether it reported a replacement, the value it dropped, the wakers woken
and the new channel. -/
structure SendResult (W α : Type) where
  replaced : Bool
  dropped : List α
  woken : List W
  chan : Channel W α

/-- `Sender::send`, dot15d4/src/sync/channel.rs:54-99. -/
def Channel.send {W α : Type} (c : Channel W α) (m : α) : Out (SendResult W α) := do
  let (didReplace, dropped, woken, c) ←
    if c.isReady then do
      let old ← Out.ofSome c.message
      pure (true, [old], c.wakerRecv.toList, { c with message := some m, wakerRecv := none })
    else
      pure (false, [], [], { c with message := some m })
  let c := { c with isReady := true }
  pure
    { replaced := didReplace
      dropped := dropped
      woken := woken ++ c.wakerRecv.toList
      chan := { c with wakerRecv := none } }

/-- `Sender::has_item` and `Receiver::has_item`, dot15d4/src/sync/channel.rs:102-105, 184-187. -/
def Channel.hasItem {W α : Type} (c : Channel W α) : Bool := c.isReady

/-- A poll of `Sender::send_async`, dot15d4/src/sync/channel.rs:108-139: when there is no item the
message is sent in the same poll, when there is one the waker is stored. The result is the
`SendResult` of the inner `send` when it completes. -/
def Channel.sendAsyncPoll {W α : Type} (willWake : W → W → Bool) (c : Channel W α) (cx : W)
    (m : α) : Out (Poll (SendResult W α) × List W × Channel W α) :=
  if c.hasItem then
    match c.wakerSend with
    | some w =>
      if willWake cx w then .ok (.pending, [], { c with wakerSend := some cx })
      else .ok (.pending, [w], { c with wakerSend := some cx })
    | none => .ok (.pending, [], { c with wakerSend := some cx })
  else do
    let r ← c.send m
    pure (.ready r, r.woken, r.chan)

/-- A poll of `Receiver::receive`, dot15d4/src/sync/channel.rs:147-180. -/
def Channel.receivePoll {W α : Type} (c : Channel W α) (cx : W) :
    Out (Poll α × List W × Channel W α) :=
  if !c.isReady then
    .ok (.pending, [], { c with wakerRecv := some cx })
  else do
    let v ← Out.ofSome c.message
    pure (.ready v, c.wakerSend.toList,
      { c with message := none, isReady := false, wakerSend := none })

/-! ## Futures, select.rs, join.rs, yield_now.rs -/

/-- An arbitrary future with output `α` acting on a shared world `Ω` (anything its poll can read
or write: radio, channels, wakers called).  `σ` is its state, `W` the waker in the poll's
context. -/
structure Fut (σ W Ω α : Type) where
  init : σ
  poll : W → σ → Ω → Poll α × σ × Ω

/-- `SelectFuture::poll`, dot15d4/src/sync/select.rs:29-39 (`select` itself, select.rs:10-15, only
builds the pair of states). -/
def select {σ τ W Ω α β : Type} (f : Fut σ W Ω α) (g : Fut τ W Ω β) :
    Fut (σ × τ) W Ω (Either α β) where
  init := (f.init, g.init)
  poll cx s w :=
    match f.poll cx s.1 w with
    | (.ready a, s1, w) => (.ready (.first a), (s1, s.2), w)
    | (.pending, s1, w) =>
      match g.poll cx s.2 w with
      | (.ready b, s2, w) => (.ready (.second b), (s1, s2), w)
      | (.pending, s2, w) => (.pending, (s1, s2), w)

/-- `poll_future`, dot15d4/src/sync/join.rs:54-68. -/
def pollFuture {σ W Ω α : Type} (f : Fut σ W Ω α) (cx : W) (s : Either σ (Option α)) (w : Ω) :
    Option α × Either σ (Option α) × Ω :=
  match s with
  | .first st =>
    match f.poll cx st w with
    | (.ready a, st, w) => (some a, .first st, w)
    | (.pending, st, w) => (none, .first st, w)
  | .second r => (none, .second r, w)

/-- One branch of `JoinFuture::poll`: poll and store the result, dot15d4/src/sync/join.rs:36-43. -/
def joinBranch {σ W Ω α : Type} (f : Fut σ W Ω α) (cx : W) (s : Either σ (Option α)) (w : Ω) :
    Either σ (Option α) × Ω :=
  match pollFuture f cx s w with
  | (some a, _, w) => (.second (some a), w)
  | (none, s, w) => (s, w)

/-- `join` and `JoinFuture::poll`, dot15d4/src/sync/join.rs:10-52. -/
def join {σ τ W Ω α β : Type} (f : Fut σ W Ω α) (g : Fut τ W Ω β) :
    Fut (Either σ (Option α) × Either τ (Option β)) W Ω (α × β) where
  init := (.first f.init, .first g.init)
  poll cx s w :=
    let (s1, w) := joinBranch f cx s.1 w
    let (s2, w) := joinBranch g cx s.2 w
    match s1, s2 with
    | .second (some a), .second (some b) => (.ready (a, b), (.second none, .second none), w)
    | s1, s2 => (.pending, (s1, s2), w)

/-- `yield_now`, dot15d4/src/sync/yield_now.rs:5-17, with the wakers it wakes collected in the
world.  The state is `has_yielded`. -/
def yieldNow {W Ω : Type} : Fut Bool W (Ω × List W) Unit where
  init := false
  poll cx hasYielded w :=
    if hasYielded then (.ready (), hasYielded, w)
    else (.pending, true, (w.1, w.2 ++ [cx]))

end Dot15d4.Sync
