import Verif.Model.Prog
import Verif.Model.PhyConfig
import Verif.Model.Time
import Verif.Model.Repr

/-!
# dot15d4/src/csma

The two tasks of `CsmaDevice` as programs (`Verif.Model.Prog`) whose calls are the driver, the
radio, the timer, the random number generator, the radio's mutex and the signal channel.

Simplifications: `transmit`/`receive` of dot15d4/src/phy/radio/futures.rs are one call each (their
inside is `Model/Radio.lean`, C42); as the trait demands (phy/radio/mod.rs:32-36) the radio does not
modify a buffer it is given to transmit; the buffer a receive filled is an arbitrary answer of the
radio.  A `MutexGuard` is a boolean `held`; where Rust drops it, the program calls `unlock`.
-/

namespace Dot15d4.Csma
open Dot15d4.Sync (Either)

/-! ## Constants and configuration -/

/-- The build-time constants, dot15d4/src/csma/user_configurable_constants.rs:14-26 and
dot15d4/build.rs:8-29 (those the code uses).  `u16` constants are natural numbers;
with `MAC_MAX_CSMA_BACKOFFS` or `MAC_MAX_FRAME_RETIES` of 65535, the code does not compile (`1..C + 1`
overflows in a constant expression), and what the model says of larger ones means nothing. -/
structure Consts where
  minBe : Nat := 0
  maxBe : Nat := 8
  maxCsmaBackoffs : Nat := 16
  /-- `UNIT_BACKOFF_PERIOD * SYMBOL_RATE_INV_US` = 20 * 16 (csma/constants.rs:46, 54) -/
  unitBackoff : Duration := .fromUs 320
  maxFrameRetries : Nat := 3
  aifs : Duration := .fromUs 1000
  sifs : Duration := .fromUs 1000
  panId : BitVec 16 := 0xffff
  implicitBroadcast : Bool := false

/-- `CsmaConfig` and its `Default`, dot15d4/src/csma/mod.rs:44-78. -/
structure Config where
  ackUnicast : Bool := true
  ackBroadcast : Bool := false
  ignoreNotForUs : Bool := true
  ackEverything : Bool := false
  channel : PhyChannel := .c26
  overwriteDstPanId : Bool := false
  overwriteSrcPanId : Bool := true

/-- `BROADCAST_PAN_ID`, dot15d4/src/csma/constants.rs:12. -/
def BROADCAST_PAN_ID : BitVec 16 := 0xffff

/-- `driver::Error`, dot15d4/src/phy/driver.rs:3-20. -/
inductive DriverError where
  | ccaBackoff (n : Nat)
  | ccaFailed
  | ackRetry (n : Nat)
  | ackFailed
  | invalidDeviceStructure
  | invalidIeeeStructure
  | radioError
  deriving DecidableEq, Repr

/-- `FrameBuffer`, dot15d4/src/phy/driver.rs:36-59. -/
structure FrameBuffer where
  buffer : Arr 128
  dirty : Bool

/-- How a radio lays out a frame in a buffer: its `RadioFrame` and `TxToken` types,
dot15d4/src/phy/radio/mod.rs:65-90. -/
structure RadioFormat where
  /-- `RadioFrame::new_checked`: an error, or the number of bytes `data()` returns -/
  frameLen : Bytes → Option Nat
  /-- where `data()` begins -/
  dataOff : Nat
  /-- what `TxToken::consume` writes around the frame -/
  header : Nat → Bytes → Bytes
  /-- where `TxToken::consume` lets the frame be written -/
  tokenOff : Nat

/-- The buffer after `data_mut()` was overwritten by `d`. -/
def RadioFormat.putData (F : RadioFormat) (b : Bytes) (n : Nat) (d : Bytes) : Bytes :=
  b.take F.dataOff ++ d ++ b.drop (F.dataOff + n)

/-- What the traits leave implicit: `data()` is inside the buffer, writing to `data_mut()` does not
change whether and how long a frame it is, the token does not write into the frame's place and an
ack fits. -/
structure RadioFormat.Lawful (F : RadioFormat) : Prop where
  frame_inside : ∀ b n, F.frameLen b = some n → F.dataOff + n ≤ b.length
  frame_stable : ∀ b n d, F.frameLen b = some n → d.length = n →
    F.frameLen (F.putData b n d) = some n
  header_length : ∀ n b, (F.header n b).length = b.length
  header_outside : ∀ n b, ((F.header n b).drop F.tokenOff).take n = (b.drop F.tokenOff).take n
  ack_fits : F.tokenOff + 3 ≤ 128

/-- `RadioFrame::data`, for a checked frame of `n` bytes. -/
def RadioFormat.data (F : RadioFormat) (b : Bytes) (n : Nat) : Bytes := (b.drop F.dataOff).take n

/-- `TxToken::consume(len, f)`. -/
def RadioFormat.consume (F : RadioFormat) (len : Nat) (f : Bytes → Out Bytes) (b : Bytes) :
    Out Bytes :=
  modifyAt (F.header len b) F.tokenOff len f

/-- A `CsmaDevice`, dot15d4/src/csma/mod.rs:81-88, and the constants it was built with. -/
structure Device where
  consts : Consts := {}
  config : Config := {}
  format : RadioFormat
  hardwareAddress : Arr 8

/-- `TransmissionTaskError`, dot15d4/src/csma/mod.rs:34-39. -/
inductive TaskError where
  | invalidIeeeFrame
  | invalidDeviceFrame
  deriving DecidableEq, Repr

/-! ## Frames -/

/-- `frame.addressing().and_then(|fields| fields.dst_address())`, dot15d4/src/csma/mod.rs:148, 240,
329. -/
def dstAddressOf (frame : DataFrame) : Out (Option Address) := do
  match ← DataFrame.addressing frame with
  | some fields => fields.dstAddress
  | none => .ok none

/-- `is_package_for_us`, dot15d4/src/csma/mod.rs:138-171. -/
def isPackageForUs (c : Consts) (hw : Arr 8) (frame : DataFrame) : Out Bool := do
  let fc ← DataFrame.frameControl frame
  let ty ← FrameControl.frameType fc
  if ty = .unknown then .ok false
  else do
    let v ← FrameControl.frameVersion fc
    if v = .unknown then .ok false
    else do
      let addr := match ← dstAddressOf frame with
        | some addr => some addr
        | none => if c.implicitBroadcast then some Address.BROADCAST else none
      match addr with
      | none => .ok false
      | some addr => do
        let pan ← match ← DataFrame.addressing frame with
          | some fields => fields.dstPanId
          | none => .ok none
        let pan := pan.getD BROADCAST_PAN_ID
        if pan ≠ c.panId ∧ pan ≠ BROADCAST_PAN_ID then .ok false
        else if addr.isBroadcast then .ok true
        else match addr with
          | .absent => .ok false
          | .short a => do
            let own ← sliceFrom hw.1 6
            let their ← sliceTo a.1 2
            .ok (own == their)
          | .extended a => .ok (hw == a)

/-- `set_ack_request_if_possible`, dot15d4/src/csma/mod.rs:312-349: the result and the new buffer. -/
def setAckRequestIfPossible (D : Device) (buffer : Bytes) :
    Out (Except TaskError (Option (Byte × Byte)) × Bytes) := do
  match D.format.frameLen buffer with
  | none => .ok (.error .invalidDeviceFrame, buffer)
  | some n => do
    let data := D.format.data buffer n
    let frameLen : Byte := BitVec.ofNat 8 data.length
    match ← (DataFrame.new data).toOption with
    | none => .ok (.error .invalidIeeeFrame, buffer)
    | some frame => do
      let ty ← FrameControl.frameType (← DataFrame.frameControl frame)
      if ty = .data ∨ ty = .macCommand then do
        match ← dstAddressOf frame with
        | some addr =>
          if addr.isUnicast && D.config.ackUnicast then do
            let frame ← DataFrame.frameControlMut frame (FrameControl.setAckRequest · true)
            let seq ← DataFrame.sequenceNumber frame
            .ok (.ok (seq.map fun s => (s, frameLen)), D.format.putData buffer n frame)
          else if addr.isBroadcast && D.config.ackBroadcast then do
            let frame ← DataFrame.frameControlMut frame (FrameControl.setAckRequest · true)
            let seq ← DataFrame.sequenceNumber frame
            .ok (.ok (seq.map fun s => (s, frameLen)), D.format.putData buffer n frame)
          else do
            let frame ← DataFrame.frameControlMut frame (FrameControl.setAckRequest · false)
            .ok (.ok none, D.format.putData buffer n frame)
        | none => do
          let frame ← DataFrame.frameControlMut frame (FrameControl.setAckRequest · false)
          .ok (.ok none, D.format.putData buffer n frame)
      else do
        let frame ← DataFrame.frameControlMut frame (FrameControl.setAckRequest · false)
        .ok (.ok none, D.format.putData buffer n frame)

/-- `pan.map(|pan_id| pan_id != MAC_PAN_ID).unwrap_or(false)`, dot15d4/src/csma/mod.rs:372-375, 381-384. -/
def panDiffers (c : Consts) (pan : Option (BitVec 16)) : Bool :=
  match pan with
  | some p => p ≠ c.panId
  | none => false

/-- `overwrite_pan_id`, dot15d4/src/csma/mod.rs:351-395: the result and the new buffer. -/
def overwritePanId (D : Device) (buffer : Bytes) : Out (Except TaskError Unit × Bytes) := do
  match D.format.frameLen buffer with
  | none => .ok (.error .invalidDeviceFrame, buffer)
  | some n => do
    match ← (DataFrame.new (D.format.data buffer n)).toOption with
    | none => .ok (.error .invalidIeeeFrame, buffer)
    | some frame => do
      match ← DataFrame.addressing frame with
      | none => .ok (.ok (), buffer)
      | some fields => do
        let addr ← AddressingFieldsRepr.parse fields
        let (addr, changed) :=
          if D.config.overwriteSrcPanId && panDiffers D.consts addr.srcPanId then
            ({ addr with srcPanId := some D.consts.panId }, true)
          else (addr, false)
        let (addr, changed) :=
          if D.config.overwriteDstPanId && panDiffers D.consts addr.dstPanId then
            ({ addr with dstPanId := some D.consts.panId }, true)
          else (addr, changed)
        if changed then do
          let frame ← DataFrame.setAddressingFields frame addr
          .ok (.ok (), D.format.putData buffer n frame)
        else .ok (.ok (), buffer)

/-- The new contents of a `[u8; 128]` mutated in place.  (Its length cannot change in Rust; that it
does not in the model is proved, C45/C50.) -/
def asBuffer (b : Bytes) : Out (Arr 128) :=
  if h : b.length = 128 then .ok ⟨b, h⟩ else .panic

/-! ## Calls -/

/-- The two tasks. -/
inductive Tid where
  | tx | rx
  deriving DecidableEq, Repr

/-- What a task asks of its surroundings. -/
inductive Op where
  /-- `Driver::transmit`, `Driver::received`, `Driver::error`, dot15d4/src/phy/driver.rs:24-31 -/
  | driverTransmit
  | driverReceived (b : FrameBuffer)
  | driverError (e : DriverError)
  /-- `yield_now().await` -/
  | yieldNow
  /-- `self.radio.try_lock()` (`true` is `Some(guard)`), `self.radio.lock().await` and dropping the
  guard -/
  | tryLock | lock | unlock
  /-- `wants_to_transmit_signal.send_async(()).await` and `.receive().await` -/
  | sendSignal | recvSignal
  /-- `transmit(radio, buffer, cfg).await` and `receive(radio, buffer, cfg).await` (with the
  buffer it leaves) -/
  | radioTransmit (buffer : Arr 128) (cfg : TxConfig)
  | radioReceive (cfg : RxConfig)
  /-- `rng.lock().await`, `.next_u32()`, and dropping that guard -/
  | rngLock | rngNext | rngUnlock
  /-- `timer.delay_us(us).await` -/
  | delay (us : BitVec 32)
  /-- `Radio::enable` -/
  | radioEnable

/-- The answers. -/
def Op.Ans : Op → Type
  | .driverTransmit => FrameBuffer
  | .tryLock => Bool
  | .radioTransmit _ _ => Bool
  | .radioReceive _ => Bool × Arr 128
  | .rngNext => BitVec 32
  | _ => Unit

/-- A call: who makes it, and what it is. -/
abbrev Call := Tid × Op

/-- The answer to a call. -/
abbrev CallAns (c : Call) : Type := c.2.Ans

/-- Programs making such calls. -/
abbrev Task (α : Type) := Prog CallAns α

/-- A call of the transmit task. -/
def tx (o : Op) : Task o.Ans := Prog.await (Ans := CallAns) (Tid.tx, o)

/-- A call of the receive task. -/
def rx (o : Op) : Task o.Ans := Prog.await (Ans := CallAns) (Tid.rx, o)

/-- `delay.as_us() as u32`: the cast truncates. -/
def asU32 (d : Duration) : BitVec 32 := d.asUs.setWidth 32

/-! ## csma/utils.rs -/

/-- `acquire_lock`, dot15d4/src/csma/utils.rs:8-38: `held` is whether `out_guard` is `Some`; it is
when the call returns. -/
def acquireLock (held : Bool) : Task Unit :=
  if held then .pure ()
  else .loop (fun (_ : Unit) => do
    let locked : Bool ← tx .tryLock
    if locked then pure (.inr ())
    else do
      tx .sendSignal
      pure (.inl ())) ()

/-! ## csma/transmission.rs -/

/-- `CCABackoffStrategy`, dot15d4/src/csma/transmission.rs:81-87. -/
inductive Backoff where
  | none
  | exponential (backoffExponent : Nat)

/-- `new_exponential_backoff`, dot15d4/src/csma/transmission.rs:94-99. -/
def Backoff.newExponential (c : Consts) : Backoff := .exponential c.minBe

/-- `1u32 << be`: panics on overflow in a build with overflow checks, and is not what was meant in
one without. -/
def shl1 (be : Nat) : Out (BitVec 32) := if be < 32 then .ok (1#32 <<< be) else .panic

/-- `*backoff_exponent + 1`, of type `u16`: panics on overflow in a build with overflow checks. -/
def incr16 (be : Nat) : Out Nat := if be + 1 < 65536 then .ok (be + 1) else .panic

/-- `MAC_UNIT_BACKOFF_DURATION * periods as usize`, then `as_us() as u32`,
dot15d4/src/csma/transmission.rs:118-119. -/
def backoffDelay (c : Consts) (periods : BitVec 32) : BitVec 32 :=
  asU32 (c.unitBackoff.mul (periods.setWidth 64))

/-- `perform_backoff`, dot15d4/src/csma/transmission.rs:101-123; returns the new strategy. -/
def performBackoff (c : Consts) : Backoff → Task Backoff
  | .none => .pure .none
  | .exponential be => do
    let one ← Prog.lift ((incr16 be).bind fun next => shl1 (min next c.maxBe))
    let be := min (be + 1) c.maxBe
    let maxBackoff := one - 1
    tx .rngLock
    let r : BitVec 32 ← tx .rngNext
    let periods := BitVec.umod r (maxBackoff + 1)
    tx .rngUnlock
    tx (.delay (backoffDelay c periods))
    pure (.exponential be)

/-- The loop variables of `transmit_cca`: `number_of_backoffs`, the backoff strategy and whether
`radio_guard` is `Some`. -/
structure CcaState where
  i : Nat
  backoff : Backoff
  held : Bool

/-- One round of the loop of `transmit_cca`, dot15d4/src/csma/transmission.rs:42-75.  The loop ends
with whether the result is `Ok`, and whether `radio_guard` is `Some`. -/
def ccaRound (c : Consts) (channel : PhyChannel) (frame : Arr 128) (s : CcaState) :
    Task (Sum CcaState (Bool × Bool)) :=
  if s.i < c.maxCsmaBackoffs + 1 then do
    acquireLock s.held
    let result : Bool ← tx (.radioTransmit frame { TxConfig.defaultWithCca with channel := channel })
    if result then pure (.inr (true, true))
    else do
      tx .unlock
      if s.i = c.maxCsmaBackoffs then pure (.inr (false, false))
      else do
        let backoff ← .join (performBackoff c s.backoff) (tx (.driverError (.ccaBackoff s.i)))
          (fun b (_ : Unit) => b)
        pure (.inl { i := s.i + 1, backoff, held := false })
  else pure (.inr (true, s.held))

/-- `transmit_cca`, dot15d4/src/csma/transmission.rs:26-79. -/
def transmitCca (c : Consts) (channel : PhyChannel) (frame : Arr 128) (held : Bool)
    (backoff : Backoff) : Task (Bool × Bool) :=
  .loop (ccaRound c channel frame) { i := 1, backoff, held }

/-! ## csma/mod.rs: transmitting -/

/-- Is the received buffer the awaited acknowledgement?  dot15d4/src/csma/mod.rs:411-422. -/
def isValidAck (F : RadioFormat) (seq : Byte) (buffer : Bytes) : Out Bool :=
  match F.frameLen buffer with
  | none => .ok false
  | some n => do
    match ← (DataFrame.new (F.data buffer n)).toOption with
    | none => .ok false
    | some frame => do
      let ty ← FrameControl.frameType (← DataFrame.frameControl frame)
      if ty = .ack then do
        let s ← DataFrame.sequenceNumber frame
        .ok (s == some seq)
      else .ok false

/-- `wait_for_valid_ack`, dot15d4/src/csma/mod.rs:397-424. -/
def waitForValidAck (F : RadioFormat) (channel : PhyChannel) (seq : Byte) : Task Unit :=
  .loop (fun (_ : Unit) => do
    let (result, buffer) : Bool × Arr 128 ← tx (.radioReceive { channel })
    if !result then pure (.inl ())
    else do
      let valid ← Prog.lift (isValidAck F seq buffer.1)
      pure (if valid then .inr () else .inl ())) ()

/-- How long an acknowledgement is waited for, dot15d4/src/csma/mod.rs:511, 521. -/
def ackTimeout (c : Consts) : BitVec 32 := asU32 ((c.aifs.add c.sifs).add (.fromUs 288))

/-- `Duration::max` of the derived order. -/
def maxDuration (a b : Duration) : Duration := if BitVec.sle a.us b.us then b else a

/-- The pause before a retry, dot15d4/src/csma/mod.rs:545-548 (`TURNAROUND_TIME *
SYMBOL_RATE_INV_US` = 12 * 16). -/
def retryDelay (c : Consts) : BitVec 32 := asU32 (maxDuration c.sifs (.fromUs 192))

/-- One round of the loop `'ack`, dot15d4/src/csma/mod.rs:478-558, with the loop variable `i_ack`;
`radio_guard` is `None` whenever a round begins.  The loop ends where the next package is
fetched. -/
def ackRound (D : Device) (frame : Arr 128) (sequenceNumber : Option (Byte × Byte)) (i : Nat) :
    Task (Sum Nat Unit) :=
  if i < D.consts.maxFrameRetries + 1 then do
    let (ok, held) ← transmitCca D.consts D.config.channel frame false
      (.newExponential D.consts)
    if !ok then do
      tx (.driverError .ccaFailed)
      pure (.inr ())
    else match sequenceNumber with
      | some (seq, _) => do
        acquireLock held
        let acked ← .select (waitForValidAck D.format D.config.channel seq)
          (tx (.delay (ackTimeout D.consts))) (fun r => r.isFirst)
        tx .unlock
        if acked then pure (.inr ())
        else do
          tx (.delay (retryDelay D.consts))
          if i = D.consts.maxFrameRetries then do
            tx (.driverError .ackFailed)
            pure (.inr ())
          else do
            tx (.driverError (.ackRetry i))
            pure (.inl (i + 1))
      | none => do
        Prog.when held (tx .unlock)
        pure (.inr ())
  else pure (.inr ())

/-- Report why a package cannot be parsed, dot15d4/src/csma/mod.rs:446-458, 462-474. -/
def reportTaskError {α : Type} (r : Except TaskError α) : Task Unit :=
  match r with
  | .ok _ => .pure ()
  | .error .invalidIeeeFrame => tx (.driverError .invalidIeeeStructure)
  | .error .invalidDeviceFrame => tx (.driverError .invalidDeviceStructure)

/-- One round of the outer loop of `transmit_package_task`, dot15d4/src/csma/mod.rs:436-559. -/
def transmitPackage (D : Device) : Task Unit := do
  let package : FrameBuffer ← tx .driverTransmit
  tx .yieldNow
  let (r, buffer) ← Prog.lift (setAckRequestIfPossible D package.buffer.1)
  let sequenceNumber := match r with
    | .ok seq => seq
    | .error _ => none
  reportTaskError r
  let (r, buffer) ← Prog.lift (overwritePanId D buffer)
  reportTaskError r
  let frame ← Prog.lift (asBuffer buffer)
  .loop (ackRound D frame sequenceNumber) 1

/-- `transmit_package_task`, dot15d4/src/csma/mod.rs:426-560. -/
def transmitTask (D : Device) : Task Empty :=
  .loop (fun (_ : Unit) => do
    transmitPackage D
    pure (.inl ())) ()

/-! ## csma/mod.rs: receiving -/

/-- What `receive_frame_task` finds out about a received buffer: `none` if it is to be dropped,
else `should_ack` and the sequence number.  dot15d4/src/csma/mod.rs:214-257. -/
def examineReceived (D : Device) (buffer : Bytes) : Out (Option (Bool × Option Byte)) :=
  match D.format.frameLen buffer with
  | none => .ok none
  | some n => do
    match ← (DataFrame.new (D.format.data buffer n)).toOption with
    | none => .ok none
    | some frame => do
      let forUs ← isPackageForUs D.consts D.hardwareAddress frame
      if !forUs && D.config.ignoreNotForUs then .ok none
      else do
        let fc ← DataFrame.frameControl frame
        let ty ← FrameControl.frameType fc
        if ty = .ack then .ok none
        else do
          let addr ← dstAddressOf frame
          let ackRequest ← FrameControl.ackRequest fc
          let shouldAck :=
            if D.config.ackEverything then true
            else if !ackRequest then false
            else match addr with
              | some addr => if addr.isBroadcast then D.config.ackBroadcast else D.config.ackUnicast
              | none => false
          let seq ← DataFrame.sequenceNumber frame
          .ok (some (shouldAck, seq))

/-- Writing the acknowledgement into the ack buffer, dot15d4/src/csma/mod.rs:267-274. -/
def writeAck (F : RadioFormat) (seq : Byte) (txAck : Bytes) : Out Bytes := do
  let repr ← (FrameBuilder.newImmAck seq).finalize.unwrap
  let len ← repr.bufferLen
  F.consume len (fun b => repr.emit b) txAck

/-- The delay before an acknowledgement, dot15d4/src/csma/mod.rs:281-282. -/
def ackDelay (c : Consts) : Out (BitVec 32) := do
  let d ← c.aifs.div 2
  .ok (asU32 d)

/-- What `receive_frame_task` keeps between rounds: whether `radio_guard` is `Some`, and the ack
buffer. -/
structure RxState where
  held : Bool
  txAck : Arr 128

/-- The branch of the `join` that acknowledges, dot15d4/src/csma/mod.rs:263-300; returns whether
the guard is still held and the ack buffer. -/
def acknowledge (D : Device) (shouldAck : Bool) (seq : Option Byte) (txAck : Arr 128) :
    Task RxState :=
  if shouldAck then
    match seq with
    | some seq => do
      let ack ← Prog.lift (writeAck D.format seq txAck.1)
      let ack ← Prog.lift (asBuffer ack)
      let delay ← Prog.lift (ackDelay D.consts)
      rx (.delay delay)
      let _ ← rx (.radioTransmit ack { channel := D.config.channel })
      pure { held := true, txAck := ack }
    | none => pure { held := true, txAck }
  else do
    rx .unlock
    pure { held := false, txAck }

/-- Wait for a frame, or for the transmit task to want the radio, dot15d4/src/csma/mod.rs:190-205:
whether a frame was received, and the buffer if the radio's future finished. -/
def listen (D : Device) : Task (Bool × Option (Arr 128)) :=
  .select (rx (.radioReceive { channel := D.config.channel })) (rx .recvSignal) (fun r =>
    match r with
    | .first (r : Bool × Arr 128) => (r.1, some r.2)
    | .second (_ : Unit) => (false, none))

/-- A received buffer, dot15d4/src/csma/mod.rs:214-304. -/
def handleReceived (D : Device) (s : RxState) (buffer : Arr 128) : Task RxState := do
  let verdict ← Prog.lift (examineReceived D buffer.1)
  match verdict with
  | none => pure { s with held := true }
  | some (shouldAck, seq) =>
    .join (acknowledge D shouldAck seq s.txAck)
      (rx (.driverReceived { buffer, dirty := true })) (fun s (_ : Unit) => s)

/-- Give the radio back, dot15d4/src/csma/mod.rs:208-212. -/
def giveUp (s : RxState) : Task RxState := do
  rx .unlock
  pure { s with held := false }

/-- One round of `receive_frame_task`, dot15d4/src/csma/mod.rs:181-305. -/
def receiveRound (D : Device) (s : RxState) : Task RxState := do
  rx .yieldNow
  Prog.when (!s.held) (rx .lock)
  let r ← listen D
  match r with
  | (true, some buffer) => handleReceived D s buffer
  | _ => giveUp s

/-- `receive_frame_task`, dot15d4/src/csma/mod.rs:173-306. -/
def receiveTask (D : Device) : Task Empty :=
  .loop (fun s => do
    let s ← receiveRound D s
    pure (.inl s)) { held := false, txAck := ⟨List.replicate 128 0, by simp⟩ }

/-- `run`, dot15d4/src/csma/mod.rs:121-134. -/
def runDevice (D : Device) : Task Empty := do
  tx .radioEnable
  .select (transmitTask D) (receiveTask D) (fun _ => ())
  .panic

end Dot15d4.Csma
