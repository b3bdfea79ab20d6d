import Verif.Model.Sync
import Mathlib.Logic.Function.Basic

/-!
# Schedules of the synchronisation primitives

A system is one primitive together with everything the program around it can do: any number of
futures, polled with any waker at any time, dropped at any time.  `task` says which task a waker
belongs to; `woken` records whether the task of a pending future has been woken since that future
last returned `Pending`.
-/

namespace Dot15d4.Sync

/-- Wakers and the tasks they wake. `will_wake` may be conservative, but when it answers `true`
both wakers wake the same task (the contract of `core::task::Waker::will_wake`). -/
structure Wakers (W T : Type) where
  task : W → T
  willWake : W → W → Bool
  sound : ∀ a b, willWake a b = true → task a = task b

/-- The life of one future: not yet polled, pending (with the task of its last poll, whether that
task was woken since, and data kept by the future), finished or dropped. -/
inductive Life (T D : Type) where
  | fresh
  | waiting (task : T) (woken : Bool) (data : D)
  | gone

/-- The effect on a pending future of waking `ws`. -/
def Life.wake {W T D : Type} [DecidableEq T] (k : Wakers W T) (ws : List W) :
    Life T D → Life T D
  | .waiting t b d => .waiting t (b || ws.any fun w => k.task w = t) d
  | l => l

/-! ## Mutex -/

/-- What a program can do with a mutex.  Numbers name `lock()` futures and guards: the guard a
future or a `try_lock` call produces carries its number. -/
inductive MutexAction (W V : Type) where
  /-- poll the `lock()` future `f` with waker `cx` -/
  | poll (f : Nat) (cx : W)
  /-- drop the `lock()` future `f` before it completed -/
  | dropFuture (f : Nat)
  /-- call `try_lock`, naming the guard `g` -/
  | tryLock (g : Nat)
  /-- write through guard `g` -/
  | write (g : Nat) (v : V)
  /-- drop guard `g` -/
  | dropGuard (g : Nat)

/-- The mutex, the live guards and the `lock()` futures. -/
structure MutexSys (W T V : Type) where
  mutex : Mutex W V
  guards : List Nat
  futs : Nat → Life T Unit

/-- The start: a new mutex, nobody waiting. -/
def MutexSys.start {W T V : Type} (v : V) : MutexSys W T V where
  mutex := Mutex.new v
  guards := []
  futs := fun _ => .fresh

/-- Which futures may be polled: those that neither finished nor were dropped. -/
def Life.alive {T D : Type} : Life T D → Bool
  | .gone => false
  | _ => true

/-- Not yet used. -/
def Life.unused {T D : Type} : Life T D → Bool
  | .fresh => true
  | _ => false

/-- One action; `none` when Rust's ownership rules do not allow it in this state. -/
def MutexSys.step {W T V : Type} [DecidableEq T] (k : Wakers W T) (s : MutexSys W T V) :
    MutexAction W V → Option (MutexSys W T V)
  | .poll f cx =>
    if (s.futs f).alive then
      match s.mutex.lockPoll k.willWake cx with
      | (.pending, ws, m) => some
        { mutex := m
          guards := s.guards
          futs := fun g => (Function.update s.futs f (.waiting (k.task cx) false ()) g).wake k ws }
      | (.ready _, ws, m) => some
        { mutex := m
          guards := f :: s.guards
          futs := fun g => (Function.update s.futs f .gone g).wake k ws }
    else none
  | .dropFuture f =>
    if (s.futs f).alive then some { s with futs := Function.update s.futs f .gone } else none
  | .tryLock g =>
    if (s.futs g).unused then
      match s.mutex.tryLock with
      | (true, m) => some
        { mutex := m, guards := g :: s.guards, futs := Function.update s.futs g .gone }
      | (false, m) => some { s with mutex := m }
    else none
  | .write g v => if g ∈ s.guards then some { s with mutex := s.mutex.guardWrite v } else none
  | .dropGuard g =>
    if g ∈ s.guards then
      match s.mutex.guardDrop with
      | (ws, m) => some
        { mutex := m, guards := s.guards.erase g, futs := fun f => (s.futs f).wake k ws }
    else none

/-- A schedule: any finite sequence of allowed actions. -/
def MutexSys.run {W T V : Type} [DecidableEq T] (k : Wakers W T) (s : MutexSys W T V)
    (acts : List (MutexAction W V)) : Option (MutexSys W T V) :=
  acts.foldlM (MutexSys.step k) s

/-! ## Channel -/

/-- What a program can do with the two halves of a channel.  Sending futures and receiving
futures are numbered separately. -/
inductive ChanAction (W α : Type) where
  | send (m : α)
  /-- poll the `send_async(m)` future `f`; `m` is fixed by the first poll -/
  | pollSend (f : Nat) (cx : W) (m : α)
  | dropSend (f : Nat)
  | pollRecv (f : Nat) (cx : W)
  | dropRecv (f : Nat)

/-- What can be observed of a channel. -/
inductive ChanEvent (α : Type) where
  /-- `send(m)` returned `replaced` -/
  | sent (m : α) (replaced : Bool)
  /-- a `send_async(m)` future completed -/
  | sentAsync (m : α)
  /-- the destructor of `m` ran inside the channel -/
  | dropped (m : α)
  /-- a `receive()` future completed with `m` -/
  | received (m : α)
  deriving DecidableEq, Repr

/-- The channel, its futures and the history of observations. -/
structure ChanSys (W T α : Type) where
  chan : Channel W α
  sends : Nat → Life T α
  recvs : Nat → Life T Unit
  log : List (ChanEvent α)

/-- The start: a channel just split. -/
def ChanSys.start {W T α : Type} : ChanSys W T α where
  chan := Channel.new
  sends := fun _ => .fresh
  recvs := fun _ => .fresh
  log := []

/-- The message a `send_async` future carries: given at the first poll, kept afterwards. -/
def Life.message {T α : Type} (m : α) : Life T α → α
  | .waiting _ _ d => d
  | _ => m

/-- Both kinds of futures feel a wake. -/
def ChanSys.wake {W T α : Type} [DecidableEq T] (k : Wakers W T) (ws : List W)
    (s : ChanSys W T α) : ChanSys W T α :=
  { s with sends := fun f => (s.sends f).wake k ws, recvs := fun f => (s.recvs f).wake k ws }

/-- One action. `ok none`: not allowed by Rust's ownership rules in this state. `panic`: undefined
behaviour (a read or drop of uninitialised memory). -/
def ChanSys.step {W T α : Type} [DecidableEq T] (k : Wakers W T) (s : ChanSys W T α) :
    ChanAction W α → Out (Option (ChanSys W T α))
  | .send m => do
    let r ← s.chan.send m
    pure (some (ChanSys.wake k r.woken
      { s with chan := r.chan
               log := s.log ++ r.dropped.map .dropped ++ [.sent m r.replaced] }))
  | .pollSend f cx m =>
    if (s.sends f).alive then do
      match ← s.chan.sendAsyncPoll k.willWake cx ((s.sends f).message m) with
      | (.pending, ws, c) =>
        pure (some (ChanSys.wake k ws
          { s with chan := c
                   sends := Function.update s.sends f
                     (.waiting (k.task cx) false ((s.sends f).message m)) }))
      | (.ready r, ws, c) =>
        pure (some (ChanSys.wake k ws
          { s with chan := c
                   sends := Function.update s.sends f .gone
                   log := s.log ++ r.dropped.map .dropped
                     ++ [.sentAsync ((s.sends f).message m)] }))
    else pure none
  | .dropSend f =>
    pure (if (s.sends f).alive then some { s with sends := Function.update s.sends f .gone }
      else none)
  | .pollRecv f cx =>
    if (s.recvs f).alive then do
      match ← s.chan.receivePoll cx with
      | (.pending, ws, c) =>
        pure (some (ChanSys.wake k ws
          { s with chan := c
                   recvs := Function.update s.recvs f (.waiting (k.task cx) false ()) }))
      | (.ready v, ws, c) =>
        pure (some (ChanSys.wake k ws
          { s with chan := c
                   recvs := Function.update s.recvs f .gone
                   log := s.log ++ [.received v] }))
    else pure none
  | .dropRecv f =>
    pure (if (s.recvs f).alive then some { s with recvs := Function.update s.recvs f .gone }
      else none)

/-- A history: any finite sequence of actions. -/
def ChanSys.run {W T α : Type} [DecidableEq T] (k : Wakers W T) (s : ChanSys W T α) :
    List (ChanAction W α) → Out (Option (ChanSys W T α))
  | [] => pure (some s)
  | a :: as => do
    match ← s.step k a with
    | some s => s.run k as
    | none => pure none

/-- The specification: a one-place buffer.  `OnePlace log b` says that a buffer that starts empty
and holds at most one value can produce the history `log` and then contain `b`. -/
inductive OnePlace {α : Type} : List (ChanEvent α) → Option α → Prop where
  | empty : OnePlace [] none
  /-- sending into the empty buffer answers `false` -/
  | send {l m} : OnePlace l none → OnePlace (l ++ [.sent m false]) (some m)
  /-- sending into the full buffer destroys the old value and answers `true` -/
  | replace {l old m} : OnePlace l (some old) →
      OnePlace (l ++ [.dropped old, .sent m true]) (some m)
  /-- a waiting send only completes into the empty buffer -/
  | sendAsync {l m} : OnePlace l none → OnePlace (l ++ [.sentAsync m]) (some m)
  /-- receiving empties the buffer -/
  | receive {l m} : OnePlace l (some m) → OnePlace (l ++ [.received m]) none

/-- Values handed to the channel, in order. -/
def sentValues {α : Type} : List (ChanEvent α) → List α :=
  List.filterMap fun
    | .sent m _ => some m
    | .sentAsync m => some m
    | _ => none

/-- Values received, in order. -/
def receivedValues {α : Type} : List (ChanEvent α) → List α :=
  List.filterMap fun
    | .received m => some m
    | _ => none

/-- Values destroyed inside the channel, in order. -/
def droppedValues {α : Type} : List (ChanEvent α) → List α :=
  List.filterMap fun
    | .dropped m => some m
    | _ => none

/-- How many sends answered `true`. -/
def replacements {α : Type} : List (ChanEvent α) → Nat :=
  List.countP fun
    | .sent _ true => true
    | _ => false

/-! ## Futures under an executor -/

/-- Poll a future until it is ready or the schedule ends.  Each entry of the schedule is a waker
and whatever the rest of the program does to the world before that poll. -/
def drive {σ W Ω α : Type} (f : Fut σ W Ω α) :
    List (W × (Ω → Ω)) → σ → Ω → Option α × σ × Ω
  | [], s, w => (none, s, w)
  | (cx, env) :: sched, s, w =>
    match f.poll cx s (env w) with
    | (.ready a, s, w) => (some a, s, w)
    | (.pending, s, w) => drive f sched s w

/-- A poll as seen from outside: by which waker, with what outcome. -/
structure PollEvent (W α : Type) where
  cx : W
  outcome : Poll α

/-- Polls of either branch, in order. -/
abbrev PollLog (W α β : Type) := List (Either (PollEvent W α) (PollEvent W β))

/-- The future `f`, with every poll of it recorded as an event of the first branch. -/
def recordFirst {σ W Ω α : Type} (β : Type) (f : Fut σ W Ω α) :
    Fut σ W (Ω × PollLog W α β) α where
  init := f.init
  poll cx s w :=
    let r := f.poll cx s w.1
    (r.1, r.2.1, (r.2.2, w.2 ++ [.first ⟨cx, r.1⟩]))

/-- The future `g`, with every poll of it recorded as an event of the second branch. -/
def recordSecond {τ W Ω β : Type} (α : Type) (g : Fut τ W Ω β) :
    Fut τ W (Ω × PollLog W α β) β where
  init := g.init
  poll cx s w :=
    let r := g.poll cx s w.1
    (r.1, r.2.1, (r.2.2, w.2 ++ [.second ⟨cx, r.1⟩]))

/-- The rest of the program acts on the world, not on the record of polls. -/
def onWorld {W Ω L : Type} (sched : List (W × (Ω → Ω))) : List (W × (Ω × L → Ω × L)) :=
  sched.map fun e => (e.1, fun w => (e.2 w.1, w.2))

end Dot15d4.Sync
