import Verif.Spec.Sync

/-!
# Who owns a message

The whole life of a `Channel`: it may be split again and again, each time after every half and
future of the previous split is gone (Rust's borrow rules: `split` takes `&mut self`), and is
dropped in the end.  The ledger books every message handed over by the program and what became of
it.
-/

namespace Dot15d4.Sync

/-- What has happened to the messages of a channel. -/
structure Ledger (W T α : Type) where
  /-- the channel, its futures and the observations since the last split -/
  sys : ChanSys W T α
  /-- messages given to `send` and `send_async`, over the whole life -/
  given : List α
  /-- messages returned by `receive`, before the last split -/
  received : List α
  /-- messages whose destructor has run, apart from those destroyed by a `send` since the last
  split -/
  destroyed : List α
  /-- for every time the channel was split or dropped at a moment when `has_item()` was true: the
  message sent last -/
  left : List α

/-- A channel just made. -/
def Ledger.start {W T α : Type} : Ledger W T α where
  sys := .start
  given := []
  received := []
  destroyed := []
  left := []

/-- All messages received so far. -/
def Ledger.allReceived {W T α : Type} (l : Ledger W T α) : List α :=
  l.received ++ receivedValues l.sys.log

/-- All messages destroyed so far. -/
def Ledger.allDestroyed {W T α : Type} (l : Ledger W T α) : List α :=
  l.destroyed ++ droppedValues l.sys.log

/-- The message a future still holds: it was given to `send_async` and the future is pending. -/
def Life.held {T α : Type} : Life T α → List α
  | .waiting _ _ m => [m]
  | _ => []

/-- The messages an action hands over: that of `send`, or that of a `send_async` future at its
first poll. -/
def handedOver {W T α : Type} (s : ChanSys W T α) : ChanAction W α → List α
  | .send m => [m]
  | .pollSend f _ m => if (s.sends f).unused then [m] else []
  | _ => []

/-- The messages destroyed together with the future an action drops. -/
def destroyedWith {W T α : Type} (s : ChanSys W T α) : ChanAction W α → List α
  | .dropSend f => (s.sends f).held
  | _ => []

/-- No future of the current split is pending. -/
def ChanSys.Idle {W T α : Type} (s : ChanSys W T α) : Prop :=
  (∀ f t b m, s.sends f ≠ .waiting t b m) ∧ (∀ f t b, s.recvs f ≠ .waiting t b ())

/-- The ledger after one action of the program. -/
def Ledger.after {W T α : Type} (l : Ledger W T α) (a : ChanAction W α) (s : ChanSys W T α) :
    Ledger W T α :=
  { l with sys := s
           given := l.given ++ handedOver l.sys a
           destroyed := l.destroyed ++ destroyedWith l.sys a }

/-- The ledger when the channel is replaced by `c` or dropped, destroying `gone`. -/
def Ledger.finish {W T α : Type} (l : Ledger W T α) (gone : List α) (c : Channel W α) :
    Ledger W T α where
  sys := { (ChanSys.start : ChanSys W T α) with chan := c }
  given := l.given
  received := l.allReceived
  destroyed := l.allDestroyed ++ gone
  left := l.left ++ if l.sys.chan.hasItem then (sentValues l.sys.log).getLast?.toList else []

/-- The ledgers a program can bring about while the channel exists. -/
inductive Lifetime {W T α : Type} [DecidableEq T] (k : Wakers W T) : Ledger W T α → Prop where
  | start : Lifetime k .start
  | act {l : Ledger W T α} {a : ChanAction W α} {s : ChanSys W T α} :
      Lifetime k l → l.sys.step k a = .ok (some s) → Lifetime k (l.after a s)
  | split {l : Ledger W T α} : Lifetime k l → l.sys.Idle →
      Lifetime k (l.finish l.sys.chan.split.1 l.sys.chan.split.2)

/-- The ledgers after the channel has been dropped. -/
def WholeLife {W T α : Type} [DecidableEq T] (k : Wakers W T) (e : Ledger W T α) : Prop :=
  ∃ l, Lifetime k l ∧ l.sys.Idle ∧ e = l.finish l.sys.chan.dropped Channel.new

/-- The messages in a list of pending futures. -/
def heldIn {T α : Type} (sends : Nat → Life T α) (fs : List Nat) : List α :=
  fs.flatMap fun f => (sends f).held

end Dot15d4.Sync
