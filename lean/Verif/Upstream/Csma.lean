import Verif.Model.DeviceRadio
import Verif.Model.Repr

/-!
# The tests of dot15d4/src/csma/mod.rs, replayed on the model

`/repo/dot15d4/src/csma/mod.rs:571-1087`, with the `TestRadio` of `/repo/dot15d4/src/phy/radio/mod.rs`,
the `TestDriver` of `/repo/dot15d4/src/phy/driver.rs` and the `Delay` of
`/repo/dot15d4/src/sync/tests.rs`.  In each test `select` polls the device, then the body of the test;
here what the body does is what happens between two polls of the device.
-/

namespace Dot15d4.Upstream.Csma
open Dot15d4 Dot15d4.Csma

/-- `TestRadioEvent`. -/
inductive Event where
  | prepareReceive
  | receive
  | prepareTransmit
  | cancel
  | transmit
  | enable
  deriving DecidableEq, Repr

/-- `TestRadioInner`, the channels of `TestDriverChannel`, and how often the delay of each task has
been polled.  `buffer` is what is in the buffer to which `receive_buffer` points. -/
structure TestWorld where
  shouldReceive : Option (Arr 128) := none
  receiveBuffer : Bool := false
  buffer : Arr 128 := ⟨List.replicate 128 0, rfl⟩
  events : List Event := []
  ccaFail : Bool := false
  lastTransmitted : Option (Arr 128) := none
  hasRequestedCca : Bool := false
  toTransmit : Option FrameBuffer := none
  received : List FrameBuffer := []
  errors : List DriverError := []
  polls : Tid → Nat := fun _ => 0

/-- `TestRadio::new_event`: duplicates are filtered. -/
def TestWorld.newEvent (w : TestWorld) (e : Event) : TestWorld :=
  if w.events.getLast? = some e then w else { w with events := w.events ++ [e] }

/-- An async function without an await. -/
def atOnce {A : Type} (f : TestWorld → A × TestWorld) : Sync.Task Unit Unit TestWorld A where
  init := ()
  poll _ _ w := (.ready (f w).1, (), (f w).2)
  drop _ w := w

/-- `impl Radio for TestRadio`. -/
def testRadio : RawRadio Unit Unit Unit Unit Unit TestWorld where
  enable := atOnce fun w => ((), w.newEvent .enable)
  prepareReceive _ := atOnce fun w =>
    ((), { w.newEvent .prepareReceive with receiveBuffer := true })
  receive :=
    { init := ()
      poll := fun _ _ w =>
        let w := w.newEvent .receive
        if w.receiveBuffer then
          match w.shouldReceive with
          | some b => (.ready true, (), { w with
              buffer := b, receiveBuffer := false, shouldReceive := none })
          | none => (.pending, (), w)
        else (.ready false, (), w)
      drop := fun _ w => w }
  prepareTransmit cfg b := atOnce fun w =>
    ((), { w.newEvent .prepareTransmit with lastTransmitted := some b, hasRequestedCca := cfg.cca })
  transmit := atOnce fun w =>
    let w := w.newEvent .transmit
    (!(w.hasRequestedCca && w.ccaFail), w)
  cancel w := w.newEvent .cancel
  received w := w.buffer

/-- A poll of the driver, the timer (ten times pending, whatever the delay) or the generator. -/
def testPoll : (e : Csma.Call) → TestWorld → Option (CallAns e) × TestWorld
  | (_, .driverTransmit), w => (w.toTransmit, { w with toTransmit := none })
  | (_, .driverReceived b), w => (some (), { w with received := w.received ++ [b] })
  | (_, .driverError e), w => (some (), { w with errors := w.errors ++ [e] })
  | (_, .rngNext), w => (some 0#32, w)
  | (i, .delay _), w =>
    if w.polls i < 10 then
      (none, { w with polls := fun j => if j = i then w.polls i + 1 else w.polls j })
    else (some (), w)
  | _, w => (none, w)

/-- The outside of the device in the tests. -/
def testOutside : Prog.DropWorld CallAns TestWorld where
  start
    | (i, .delay us), w =>
      testPoll (i, .delay us) { w with polls := fun j => if j = i then 0 else w.polls j }
    | e, w => testPoll e w
  poll := testPoll
  drop _ w := w

/-- `CsmaDevice::new(TestRadio::default(), .., CsmaConfig::default())`, with `TestRadioFrame` and
`TestTxToken`. -/
def testDevice : Device where
  format :=
    { frameLen := fun b => some (min 127 b.length), dataOff := 0, header := fun _ b => b, tokenOff := 0 }
  hardwareAddress := ⟨List.replicate 8 0xca, rfl⟩

/-- The device and the world of the tests. -/
abbrev TestState := Shared (WithRadio Unit Unit Unit Unit Unit TestWorld)

/-- A test: what its body does between polls. -/
def test (body : List (TestWorld → TestWorld)) : Prog.Res CallAns Empty × TestState :=
  (runDevice testDevice).runD (deviceDropWorld (radioWorld testRadio testOutside)) 50
    (body.map fun env (s : TestState) => { s with base := { s.base with base := env s.base.base } })
    { base := { base := {} } }

/-- The world at the end of a test. -/
def after (body : List (TestWorld → TestWorld)) : TestWorld := (test body).2.base.base

/-- `n` polls. -/
def polls (n : Nat) : List (TestWorld → TestWorld) := List.replicate n id

/-- A buffer that begins with `b`. -/
def bufferOf (b : Bytes) : Arr 128 := ⟨(b ++ List.replicate 128 0).take 128, by simp⟩

/-- `monitor.tx.send_async`. -/
def send (b : Arr 128) (w : TestWorld) : TestWorld := { w with toTransmit := some ⟨b, false⟩ }

/-- `should_receive`. -/
def hear (b : Arr 128) (w : TestWorld) : TestWorld := { w with shouldReceive := some b }

/-- The frame of most tests: data [1, 2, 3, 4] number 123 from [1, 2, 3, 4, 9, 8, 7, 6]. -/
def frame (dst : Address) (pan : BitVec 16) (ackRequest : Bool) : Out Bytes := do
  let f := FrameBuilder.newData [1, 2, 3, 4]
  let f := f.setSequenceNumber 123
  let f := f.setDstAddress dst
  let f := f.setSrcAddress (.extended ⟨[1, 2, 3, 4, 9, 8, 7, 6], rfl⟩)
  let f := f.setDstPanId pan
  let f := f.setSrcPanId pan
  let r ← f.finalize
  let r : FrameRepr := { r with frameControl := { r.frameControl with ackRequest := ackRequest } }
  let n ← r.bufferLen
  r.emit (List.replicate n 0)

/-- The buffer with what was emitted, if all went well. -/
def emitted : Out Bytes → Arr 128
  | .ok b => bufferOf b
  | _ => bufferOf []

/-- `Address::Extended([1, 2, 3, 4, 5, 6, 7, 8])`. -/
def other : Address := .extended ⟨[1, 2, 3, 4, 5, 6, 7, 8], rfl⟩

/-- `Address::Extended(radio.ieee802154_address())`. -/
def us : Address := .extended ⟨List.replicate 8 0xca, rfl⟩

/-- The immediate acknowledgement of number 123. -/
def ack : Out Bytes := do
  let r ← (FrameBuilder.newImmAck 123).finalize
  let n ← r.bufferLen
  r.emit (List.replicate n 0)

/-- `l.repeat(n)`. -/
def times (n : Nat) (l : List Event) : List Event := (List.replicate n l).flatten

section
open Event

/-- `test_happy_path_transmit_no_ack`, lines 571-607. -/
example : (after ([id, send (bufferOf [])] ++ polls 3)).events.take 8 =
    [enable, prepareReceive, receive, cancel, prepareTransmit, transmit, prepareReceive, receive] := by
  decide +kernel

/-- The frames of the tests are emitted. -/
example : [frame other 0xfff false, frame other 0xffff false, frame us 0xffff true,
    frame us 0xffff false, frame .BROADCAST 0xffff true, ack].map
      (fun o => match o with | .ok b => b.length | _ => 0) = [25, 25, 25, 25, 19, 3] := by
  decide +kernel

/-- `test_happy_path_transmit_with_ack`, lines 609-697: the frame is transmitted with the ack request
bit, and the device waits for the acknowledgement. -/
def withAck : List (TestWorld → TestWorld) :=
  [id, send (emitted (frame other 0xfff false))] ++ polls 3

example : (after withAck).events =
    [enable, prepareReceive, receive, cancel, prepareTransmit, transmit, prepareReceive, receive] := by
  decide +kernel

example : (after withAck).lastTransmitted = some (emitted (frame other 0xfff true)) := by
  decide +kernel

example :
    let w := after (withAck ++ [hear (emitted ack)] ++ polls 3)
    w.events.take 10 = (after withAck).events ++ [prepareReceive, receive] ∧ w.errors = [] := by
  decide +kernel

/-- `test_happy_path_receive`, lines 699-768. -/
example :
    let w := after ([id, hear (emitted (frame us 0xffff true))] ++ polls 12)
    w.events.take 5 = [enable, prepareReceive, receive, prepareTransmit, transmit] ∧
      w.received.map (·.buffer) = [emitted (frame us 0xffff true)] ∧
      w.lastTransmitted = some (emitted ack) := by
  decide +kernel

/-- `test_receive_no_ack`, lines 770-833. -/
example :
    let w := after ([id, hear (emitted (frame us 0xffff false))] ++ polls 3)
    w.events = [enable, prepareReceive, receive, prepareReceive, receive] ∧
      w.received.map (·.buffer) = [emitted (frame us 0xffff false)] ∧
      w.lastTransmitted = none := by
  decide +kernel

/-- `test_wait_for_ack_but_receive_garbage_and_cca_issues`, lines 835-945. -/
def garbage : List (TestWorld → TestWorld) :=
  [id, send (emitted (frame other 0xffff false))] ++ polls 3 ++
    [fun w => { hear (bufferOf [42, 42, 42, 42]) w with ccaFail := true }]

example :
    let w := after (garbage ++ polls 360)
    w.events.take 137 =
        [enable, prepareReceive, receive, cancel, prepareTransmit, transmit, prepareReceive, receive] ++
        times 3 [prepareReceive, receive, cancel] ++
        times 15 [prepareTransmit, transmit,
          prepareReceive, receive, cancel, prepareReceive, receive, cancel] ∧
      (∃ n, .ccaBackoff n ∈ w.errors) := by
  refine ⟨by decide +kernel, 1, by decide +kernel⟩

/-- `test_transmit_no_ack_received`, lines 947-1026. -/
example :
    let w := after (withAck ++ polls 20)
    w.events.take 15 =
        [enable, prepareReceive, receive, cancel, prepareTransmit, transmit] ++
        times 3 [prepareReceive, receive, cancel] ∧
      w.errors = [.ackRetry 1] := by
  decide +kernel

/-- `test_do_not_ack_by_default_on_broadcast`, lines 1028-1087. -/
example :
    let w := after ([id, hear (emitted (frame .BROADCAST 0xffff true))] ++ polls 3)
    w.events = [enable, prepareReceive, receive, prepareReceive, receive] ∧
      w.received.map (·.buffer) = [emitted (frame .BROADCAST 0xffff true)] ∧
      w.lastTransmitted = none := by
  decide +kernel

end
end Dot15d4.Upstream.Csma
