import Verif.Model.Sync

/-!
# dot15d4/src/phy/radio/futures.rs

`transmit` and `receive` are the same program around different radio methods, so they are one
definition with the two radio futures as parameters.  A radio is arbitrary: what its asynchronous
methods do at a poll, and when they are dropped halfway, is given by `Task`; the world `Ω` is the
radio (and anything else those methods touch).
-/

namespace Dot15d4.Sync

/-- An asynchronous method of the `Radio` trait (dot15d4/src/phy/radio/mod.rs:8-63): a future and
what dropping it before completion does. -/
structure Task (σ W Ω α : Type) extends Fut σ W Ω α where
  drop : σ → Ω → Ω

/-- What `transmit`/`receive` use of the radio. -/
structure RadioOps (P O W Ω : Type) where
  /-- `prepare_transmit` or `prepare_receive` -/
  prepare : Task P W Ω Unit
  /-- `transmit` or `receive` -/
  operate : Task O W Ω Bool
  /-- `cancel_current_opperation` -/
  cancel : Ω → Ω

/-- The locals of the async function that outlive an await: the `RefMut` (`borrowed`) and the
`OnDrop` guard (`armed`: its closure has not been defused), dot15d4/src/phy/radio/futures.rs:48-52,
72-76. -/
structure Locals where
  borrowed : Bool
  armed : Bool

/-- Where an async function is suspended. -/
inductive OpState (P O : Type) where
  | unresumed
  | preparing (l : Locals) (s : P)
  | operating (l : Locals) (s : O)
  | returned

/-- `OnDrop::defuse`, dot15d4/src/phy/radio/futures.rs:20-27: the closure is dropped without being
called, and `OnDrop::drop` does not run. -/
def Locals.defuse (l : Locals) : Locals := { l with armed := false }

/-- `OnDrop::drop`, dot15d4/src/phy/radio/futures.rs:30-36: runs the closure, which borrows the
radio mutably (a panic if it is still borrowed) and cancels. -/
def Locals.dropOnDrop {P O W Ω : Type} (ops : RadioOps P O W Ω) (l : Locals) (w : Ω) : Out Ω :=
  if l.armed then
    if l.borrowed then .panic else .ok (ops.cancel w)
  else .ok w

/-- Dropping the locals in reverse order of declaration: the `RefMut` declared at
futures.rs:52/76 first, then `on_drop` declared at futures.rs:50/74. -/
def Locals.dropAll {P O W Ω : Type} (ops : RadioOps P O W Ω) (l : Locals) (w : Ω) : Out Ω :=
  let l := { l with borrowed := false }
  l.dropOnDrop ops w

/-- Polling from the second await on: `radio.transmit().await`/`radio.receive().await`, then
`on_drop.defuse()` and the return, dot15d4/src/phy/radio/futures.rs:56-59, 80-83. -/
def pollOperate {P O W Ω : Type} (ops : RadioOps P O W Ω) (cx : W) (l : Locals) (s : O)
    (w : Ω) : Out (Poll Bool × OpState P O × Ω) :=
  match ops.operate.poll cx s w with
  | (.pending, s, w) => .ok (.pending, .operating l s, w)
  | (.ready r, _, w) => do
    let w ← l.defuse.dropAll ops w
    pure (.ready r, .returned, w)

/-- Polling from the first await on, dot15d4/src/phy/radio/futures.rs:53-56, 77-80. -/
def pollPrepare {P O W Ω : Type} (ops : RadioOps P O W Ω) (cx : W) (l : Locals) (s : P)
    (w : Ω) : Out (Poll Bool × OpState P O × Ω) :=
  match ops.prepare.poll cx s w with
  | (.pending, s, w) => .ok (.pending, .preparing l s, w)
  | (.ready _, _, w) => pollOperate ops cx l ops.operate.init w

/-- A poll of the future returned by `transmit` (dot15d4/src/phy/radio/futures.rs:43-60) or
`receive` (futures.rs:67-84).  Polling an async function after it returned panics. -/
def pollRadio {P O W Ω : Type} (ops : RadioOps P O W Ω) (cx : W)
    (s : OpState P O) (w : Ω) :
    Out (Poll Bool × OpState P O × Ω) :=
  match s with
  | .unresumed => pollPrepare ops cx { borrowed := true, armed := true } ops.prepare.init w
  | .preparing l s => pollPrepare ops cx l s w
  | .operating l s => pollOperate ops cx l s w
  | .returned => .panic

/-- Dropping the future returned by `transmit`/`receive`: a suspended async function drops the
future it awaits, then its locals. -/
def dropRadio {P O W Ω : Type} (ops : RadioOps P O W Ω)
    (s : OpState P O) (w : Ω) : Out Ω :=
  match s with
  | .unresumed => .ok w
  | .preparing l s => l.dropAll ops (ops.prepare.drop s w)
  | .operating l s => l.dropAll ops (ops.operate.drop s w)
  | .returned => .ok w

end Dot15d4.Sync
