import Verif.Model.Sync

/-!
# The unit tests of dot15d4/src/sync, replayed

The tests run async blocks with `pollster::block_on`.  An async block is given here by what it does
between its suspension points (`Block`); polling it is defined once, below.  All wakers are those of
the one task of `block_on`, so `W` is `Unit`.
-/

namespace Dot15d4.Upstream.Sync
open Dot15d4.Sync

/-- What the blocks of a test share: a mutex, two channels, whether the task was woken, whether an
assertion failed or something panicked, and the values dropped by channels. -/
structure World where
  mutex : Mutex Unit Nat := Mutex.new 0
  chan1 : Channel Unit Nat := Channel.new
  chan2 : Channel Unit Nat := Channel.new
  woken : Bool := false
  failed : Bool := false
  dropped : List Nat := []

/-- An async block. -/
inductive Block where
  | done
  /-- code without await -/
  | run (f : World → World) (k : Block)
  /-- code that depends on the world -/
  | look (f : World → Block)
  /-- the await of a future without a state of its own: `lock`, `receive`, `send_async` -/
  | await (p : World → Option Nat × World) (k : Nat → Block)
  /-- `yield_now().await` -/
  | yield (k : Block)

/-- Run code up to the next suspension point. -/
def Block.poll : Block → World → Block × World
  | .done, w => (.done, w)
  | .run f k, w => k.poll (f w)
  | .look f, w => (f w).poll w
  | .await p k, w =>
    match p w with
    | (some v, w) => (k v).poll w
    | (none, w) => (.await p k, w)
  | .yield k, w => (k, { w with woken := true })

/-- Whether a block has returned. -/
def Block.isDone : Block → Bool
  | .done => true
  | _ => false

/-- A block as a future. -/
def Block.fut (b : Block) : Fut Block Unit World Unit where
  init := b
  poll _ s w := match s.poll w with
    | (s', w') => if s'.isDone then (.ready (), s', w') else (.pending, s', w')

/-- `block_on`: poll again whenever the task was woken; `none` when it waits forever (or `fuel` polls
are not enough). -/
def blockOn {σ α : Type} (f : Fut σ Unit World α) : Nat → σ → World → Option (α × World)
  | 0, _, _ => none
  | fuel + 1, s, w =>
    match f.poll () s { w with woken := false } with
    | (.ready a, _, w) => some (a, w)
    | (.pending, s, w) => if w.woken then blockOn f fuel s w else none

/-- The wakers called: there is only one task. -/
def World.wake (w : World) (ws : List Unit) : World := { w with woken := w.woken || !ws.isEmpty }

/-- `mutex.lock().await` -/
def lock (k : Block) : Block :=
  .await (fun w => match w.mutex.lockPoll (fun _ _ => true) () with
    | (.ready _, ws, m) => (some 0, { w with mutex := m }.wake ws)
    | (.pending, ws, m) => (none, { w with mutex := m }.wake ws)) fun _ => k
/-- `*guard += 1` -/
def bump (k : Block) : Block :=
  .run (fun w => { w with mutex := w.mutex.guardWrite (w.mutex.guardRead + 1) }) k
/-- The guard goes out of scope. -/
def unlock (k : Block) : Block :=
  .run (fun w => match w.mutex.guardDrop with
    | (ws, m) => { w with mutex := m }.wake ws) k
/-- `assert!` -/
def check (p : World → Bool) (k : Block) : Block :=
  .run (fun w => { w with failed := w.failed || !p w }) k

/-- One of the two channels. -/
def World.chan (w : World) : Bool → Channel Unit Nat
  | false => w.chan1
  | true => w.chan2
/-- The same, changed. -/
def World.setChan (w : World) (i : Bool) (c : Channel Unit Nat) : World :=
  match i with
  | false => { w with chan1 := c }
  | true => { w with chan2 := c }

/-- `send.send(v)` -/
def send (i : Bool) (v : Nat) (k : Block) : Block :=
  .run (fun w => match (w.chan i).send v with
    | .ok r => ({ w.setChan i r.chan with dropped := w.dropped ++ r.dropped }).wake r.woken
    | _ => { w with failed := true }) k
/-- `send.send_async(v).await` -/
def sendAsync (i : Bool) (v : Nat) (k : Block) : Block :=
  .await (fun w => match (w.chan i).sendAsyncPoll (fun _ _ => true) () v with
    | .ok (.ready _, ws, c) => (some 0, (w.setChan i c).wake ws)
    | .ok (.pending, ws, c) => (none, (w.setChan i c).wake ws)
    | _ => (none, { w with failed := true })) fun _ => k
/-- `assert_eq!(recv.receive().await, v)` -/
def receive (i : Bool) (v : Nat) (k : Block) : Block :=
  .await (fun w => match (w.chan i).receivePoll () with
    | .ok (.ready x, ws, c) => (some x, (w.setChan i c).wake ws)
    | .ok (.pending, ws, c) => (none, (w.setChan i c).wake ws)
    | _ => (none, { w with failed := true })) fun x => check (fun _ => x == v) k
/-- A loop with a fixed number of turns. -/
def loop (n : Nat) (body : Nat → Block → Block) (k : Block) : Block :=
  (List.range n).foldr body k

/-- Blocks that are awaited one after another: `blocks` of them, each `f`. -/
def rounds {σ α : Type} (f : Fut σ Unit World α) (fuel : Nat) : Nat → World → Option World
  | 0, w => some w
  | n + 1, w => (blockOn f fuel f.init w).bind fun r => rounds f fuel n r.2

/-! ## mutex.rs -/

/-- `async { let mut guard = mutex.lock().await; *guard += 1; }` -/
def increment : Block := lock <| bump <| unlock .done

/-- `test_mutex_no_concurrency` (mutex.rs:156-172) -/
example : (blockOn (lock <| bump <| check (·.mutex.guardRead == 1) <| unlock .done).fut 10
    (lock <| bump <| check (·.mutex.guardRead == 1) <| unlock .done) {}).map
      (fun r => (r.2.mutex.read, r.2.failed)) = some (1, false) := rfl

set_option maxRecDepth 20000 in
/-- `test_mutex_select_concurrency` (mutex.rs:175-195) -/
example : (rounds (select increment.fut increment.fut) 10 100 {}).map (fun w => w.mutex.read) =
    some 100 := rfl

set_option maxRecDepth 20000 in
/-- `test_mutex_join_concurrency` (mutex.rs:198-218) -/
example : (rounds (join increment.fut increment.fut) 10 100 {}).map (fun w => w.mutex.read) =
    some 200 := rfl

/-- The second block of `test_try_lock`: at most `n` more turns. -/
def tryLoop : Nat → Block
  | 0 => .run (fun w => { w with failed := true }) .done
  | n + 1 => .look fun w => match w.mutex.tryLock with
    | (true, m) => .run (fun w => { w with mutex := m }) <| bump <| unlock .done
    | (false, _) => .yield (tryLoop n)

/-- `test_try_lock` (mutex.rs:221-255) -/
example :
    let f := join (lock <| loop 10 (fun _ k => bump (.yield k)) <| unlock .done).fut (tryLoop 21).fut
    (blockOn f 40 f.init {}).map (fun r => (r.2.mutex.read, r.2.failed)) = some (11, false) := rfl

/-! ## channel.rs -/

/-- `test_channel_no_concurrency` (channel.rs:202-210) -/
example : let f := (send false 1 <| receive false 1 .done).fut
    (blockOn f 10 f.init {}).map (·.2.failed) = some false := rfl

/-- `test_channel_join_concurrency` (channel.rs:213-235) -/
example :
    let f := join (loop 10 (fun i k => send false i (.yield k)) .done).fut
      (loop 10 (fun i k => receive false i k) .done).fut
    (blockOn f 40 f.init {}).map (·.2.failed) = some false := rfl

/-- `test_drop_by_leaking` (channel.rs:239-249): the replaced values are dropped, once each. -/
example : let f := (send false 0 <| send false 1 <| send false 2 <| receive false 2 .done).fut
    (blockOn f 10 f.init {}).map (fun r => (r.2.failed, r.2.dropped)) = some (false, [0, 1]) := rfl

set_option maxRecDepth 20000 in
/-- `test_multiple_receivers` (channel.rs:252-280) -/
example :
    let f := join (join (receive false 0 .done).fut (receive false 1 .done).fut)
      (loop 10 (fun _ k => .yield k) <| send false 0 <| .yield <| send false 1 .done).fut
    (rounds f 40 10 {}).map (·.failed) = some false := rfl

/-- The inner `join(..).await` of a block, as a future that first yields `n` times. -/
def after {σ α : Type} (n : Nat) (f : Fut σ Unit World α) : Fut (Nat × σ) Unit World α where
  init := (n, f.init)
  poll cx s w := match s with
    | (n + 1, s) => (.pending, (n, s), { w with woken := true })
    | (0, s) => match f.poll cx s w with
      | (.ready a, s, w) => (.ready a, (0, s), w)
      | (.pending, s, w) => (.pending, (0, s), w)

/-- `test_multiple_channels_at_once` (channel.rs:283-318) -/
example :
    let f := join
      (sendAsync false 0 <| sendAsync true 0 <| sendAsync false 1 <| sendAsync true 1 .done).fut
      (after 10 (join (receive false 0 <| receive true 0 .done).fut
        (receive false 1 <| receive true 1 .done).fut))
    (blockOn f 60 f.init {}).map (·.2.failed) = some false := rfl

/-! ## join.rs, select.rs, yield_now.rs -/

/-- `poll_fn(|_| Poll::Ready(a))` -/
def readyFn {α : Type} (a : α) : Fut Unit Unit World α where
  init := ()
  poll _ s w := (.ready a, s, w)
/-- `poll_fn(|_| Poll::Pending)` -/
def pendingFn : Fut Unit Unit World Unit where
  init := ()
  poll _ s w := (.pending, s, w)
/-- The `poll_fn` that counts down from 10, waking itself. -/
def countdown : Fut Nat Unit World Unit where
  init := 10
  poll _ s w := if s = 0 then (.ready (), s, w) else (.pending, s - 1, { w with woken := true })

/-- `block_on` of a future, in a fresh world, with more polls than needed. -/
def result {σ α : Type} (f : Fut σ Unit World α) : Option α := (blockOn f 20 f.init {}).map (·.1)

/-- join.rs:80-88, 91-108, 111-128 -/
example : result (join (readyFn 1) (readyFn 2)) = some (1, 2) ∧
    result (join countdown (readyFn ())) = some ((), ()) ∧
    result (join (readyFn ()) countdown) = some ((), ()) := ⟨rfl, rfl, rfl⟩

/-- select.rs:54-62, 65-73, 76-93, 96-113 -/
example : result (select (readyFn 1) (readyFn 2)) = some (.first 1) ∧
    result (select pendingFn (readyFn 2)) = some (.second 2) ∧
    result (select countdown pendingFn) = some (.first ()) ∧
    result (select pendingFn countdown) = some (.second ()) := ⟨rfl, rfl, rfl, rfl⟩

/-- Not in the upstream tests: two futures that only wait are never ready, and `block_on` hangs. -/
example : result (select pendingFn pendingFn) = none := rfl

/-- `test_yield_finishes` (yield_now.rs:25-35), on the block and on the model's `yieldNow`. -/
example : result (Block.yield .done).fut = some () ∧
    (yieldNow (W := Unit) (Ω := Unit)).poll () false ((), []) = (.pending, true, ((), [()])) ∧
    (yieldNow (W := Unit) (Ω := Unit)).poll () true ((), [()]) = (.ready (), true, ((), [()])) :=
  ⟨rfl, rfl, rfl⟩

end Dot15d4.Upstream.Sync
