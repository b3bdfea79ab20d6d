import Verif.Spec.Csma

/-!
# What the CSMA device should do with a package it is given

The history of the transmit task as the outside sees it, as a grammar.
-/

namespace Dot15d4.Spec
open Dot15d4 Props Csma

/-- What is seen of the transmit task: it was given a package; it reports to the upper layer; it
took or released the radio; it started a transmission, which succeeded or not; it drew a random
number; it pauses; it listens, and received something or not. -/
inductive TxEvent where
  | fetched (p : FrameBuffer)
  | report (e : DriverError)
  | locked
  | unlocked
  | attempt (buffer : Arr 128) (cfg : TxConfig)
  | result (ok : Bool)
  | random (r : BitVec 32)
  | pause (us : BitVec 32)
  | listen (cfg : RxConfig)
  | heard (ok : Bool) (buffer : Arr 128)

/-- What is seen of the transmit task in a record of calls. -/
def txEvent : Ev CallAns → Option TxEvent
  | .ret (.tx, .driverTransmit) r => some (.fetched r)
  | .start (.tx, .driverError e) => some (.report e)
  | .ret (.tx, .tryLock) (r : Bool) => if r then some .locked else none
  | .start (.tx, .unlock) => some .unlocked
  | .start (.tx, .radioTransmit b cfg) => some (.attempt b cfg)
  | .ret (.tx, .radioTransmit _ _) r => some (.result r)
  | .ret (.tx, .rngNext) r => some (.random r)
  | .start (.tx, .delay us) => some (.pause us)
  | .start (.tx, .radioReceive cfg) => some (.listen cfg)
  | .ret (.tx, .radioReceive _) r => some (.heard r.1 r.2)
  | _ => none

/-- The `k`-th pause of a transmission (k = 1, 2, ...) with the random number `r`: `r` reduced to
`0 .. 2^BE - 1` unit backoff periods, with BE growing from the minimum by one each time, up to the
maximum.  (In microseconds, modulo 2^32.) -/
def backoffPause (c : Consts) (k : Nat) (r : BitVec 32) : BitVec 32 :=
  BitVec.ofInt 32 (c.unitBackoff.us.toInt * (r.toNat % 2 ^ min (c.minBe + k) c.maxBe : Nat))

/-- The radio is taken unless the task already has it. -/
def taking (held : Bool) : List TxEvent := if held then [] else [.locked]

/-- Trying to get a buffer on the air, from the `i`-th attempt on, with the radio already `held` or
not; ends with success or failure.  A failed attempt is followed by releasing the radio, and by a
backoff during which it is reported, unless it was the last. -/
inductive CcaLog (c : Consts) (channel : PhyChannel) (b : Arr 128) :
    Nat → Bool → List TxEvent → Bool → Prop where
  | sent {i held} : i ≤ c.maxCsmaBackoffs →
      CcaLog c channel b i held (taking held ++ [.attempt b ⟨channel, true⟩, .result true]) true
  | failed {held} :
      CcaLog c channel b c.maxCsmaBackoffs held
        (taking held ++ [.attempt b ⟨channel, true⟩, .result false, .unlocked]) false
  | again {i held r l l' ok} : i < c.maxCsmaBackoffs →
      Interleave [.random r, .pause (backoffPause c i r)] [.report (.ccaBackoff i)] l →
      CcaLog c channel b (i + 1) false l' ok →
      CcaLog c channel b i held
        (taking held ++ [.attempt b ⟨channel, true⟩, .result false, .unlocked] ++ l ++ l') ok

/-- A received buffer is the acknowledgement for `seq`. -/
def ValidAck (F : RadioFormat) (seq : Byte) (buffer : Arr 128) : Prop :=
  ∃ h, Holds F buffer.1 h ∧ h.fc.frameType = .ack ∧ h.seq = some seq

/-- Listening for the acknowledgement of `seq`, until it was heard (`true`), or listening still
(`false`). -/
inductive Listening (F : RadioFormat) (channel : PhyChannel) (seq : Byte) :
    List TxEvent → Bool → Prop where
  | acked {b} : ValidAck F seq b → Listening F channel seq [.listen ⟨channel⟩, .heard true b] true
  | still : Listening F channel seq [.listen ⟨channel⟩] false
  | more {ok b l done} : ¬ (ok = true ∧ ValidAck F seq b) → Listening F channel seq l done →
      Listening F channel seq (.listen ⟨channel⟩ :: .heard ok b :: l) done

/-- How long an acknowledgement is waited for: AIFS, SIFS and 288 us, the time an acknowledgement
takes. -/
def ackWait (c : Consts) : BitVec 32 :=
  BitVec.ofInt 32 (c.aifs.us.toInt + c.sifs.us.toInt + 288)

/-- The pause before a retransmission: SIFS, but at least the turnaround time of 192 us. -/
def retryPause (c : Consts) : BitVec 32 := BitVec.ofInt 32 (max c.sifs.us.toInt 192)

/-- Waiting for an acknowledgement: it was heard, or the time elapsed while listening. -/
inductive AckLog (c : Consts) (F : RadioFormat) (channel : PhyChannel) (seq : Byte) :
    List TxEvent → Bool → Prop where
  | acked {l1 l2 l} : Listening F channel seq l1 true → (l2 = [] ∨ l2 = [.pause (ackWait c)]) →
      Interleave l1 l2 l → AckLog c F channel seq l true
  | timeout {l1 l} : Listening F channel seq l1 false →
      Interleave l1 [.pause (ackWait c)] l → AckLog c F channel seq l false

/-- How the transmission of a package ends. -/
inductive TxOutcome where
  /-- transmitted, no acknowledgement wanted -/
  | sent
  /-- transmitted and acknowledged -/
  | acked
  /-- the channel was never clear -/
  | ccaFailed
  /-- transmitted, but never acknowledged -/
  | ackFailed
  deriving DecidableEq

/-- Transmitting a package, from the `i`-th transmission on: `b` is what is transmitted, `seq` the
sequence number whose acknowledgement is awaited, if any. -/
inductive SendLog (D : Device) (b : Arr 128) (seq : Option Byte) :
    Nat → List TxEvent → TxOutcome → Prop where
  | ccaFailed {i l} : CcaLog D.consts D.config.channel b 1 false l false →
      SendLog D b seq i (l ++ [.report .ccaFailed]) .ccaFailed
  | sent {i l} : seq = none → CcaLog D.consts D.config.channel b 1 false l true →
      SendLog D b seq i (l ++ [.unlocked]) .sent
  | acked {i l l' s} : seq = some s → CcaLog D.consts D.config.channel b 1 false l true →
      AckLog D.consts D.format D.config.channel s l' true →
      SendLog D b seq i (l ++ l' ++ [.unlocked]) .acked
  | ackFailed {l l' s} : seq = some s → CcaLog D.consts D.config.channel b 1 false l true →
      AckLog D.consts D.format D.config.channel s l' false →
      SendLog D b seq D.consts.maxFrameRetries
        (l ++ l' ++ [.unlocked, .pause (retryPause D.consts), .report .ackFailed]) .ackFailed
  | retry {i l l' s l'' o} : seq = some s → CcaLog D.consts D.config.channel b 1 false l true →
      AckLog D.consts D.format D.config.channel s l' false → i < D.consts.maxFrameRetries →
      SendLog D b seq (i + 1) l'' o →
      SendLog D b seq i
        (l ++ l' ++ [.unlocked, .pause (retryPause D.consts), .report (.ackRetry i)] ++ l'') o

/-- What a package is turned into before it is transmitted: the ack request bit is set if wanted
and the PAN ids are overwritten; without a frame that can be read, it is transmitted as it is, and
that is reported (twice).  `seq` is the acknowledgement that will be awaited. -/
inductive Prepared (D : Device) (buffer b : Arr 128) : Option Byte → List TxEvent → Prop where
  | frame (h : Header) (n : Nat) (o0 o1 : Byte) (want : Bool) :
      h.WellFormed → Acceptable h.bytes → D.format.frameLen buffer.1 = some n →
      D.format.data buffer.1 n = h.bytes →
      (want = true ↔ WantsAck D.config h) →
      decodeFc o0 o1 = { h.fc with ackRequest := h.fc.ackRequest || want } →
      fcBit o0 o1 7 = fcBit h.o0 h.o1 7 →
      b.1 = D.format.putData buffer.1 n
        (({ h with o0 := o0, o1 := o1 } : Header).overwrite D).bytes →
      Prepared D buffer b (if want then h.seq else none) []
  | noDeviceFrame : D.format.frameLen buffer.1 = none → b = buffer →
      Prepared D buffer b none
        [.report .invalidDeviceStructure, .report .invalidDeviceStructure]
  | noIeeeFrame (n : Nat) : D.format.frameLen buffer.1 = some n →
      ¬ Acceptable (D.format.data buffer.1 n) → b = buffer →
      Prepared D buffer b none [.report .invalidIeeeStructure, .report .invalidIeeeStructure]

/-- The whole of a package. -/
inductive PackageLog (D : Device) : List TxEvent → TxOutcome → Prop where
  | mk (p : FrameBuffer) (b : Arr 128) (seq : Option Byte) (reports l : List TxEvent)
      (o : TxOutcome) : Prepared D p.buffer b seq reports → SendLog D b seq 1 l o →
      PackageLog D (.fetched p :: reports ++ l) o

/-- A history of the transmit task: some packages, the last one perhaps not finished. -/
def TransmitLog (D : Device) (l : List TxEvent) : Prop :=
  ∃ (packages : List (List TxEvent)) (last : List TxEvent), l = packages.flatten ++ last ∧
    (∀ r ∈ packages, ∃ o, PackageLog D r o) ∧ (last = [] ∨ ∃ rest o, PackageLog D (last ++ rest) o)

/-! ## Reading a history -/

/-- The buffers transmitted, with how. -/
def attempts (l : List TxEvent) : List (Arr 128 × TxConfig) :=
  l.filterMap fun | .attempt b cfg => some (b, cfg) | _ => none

/-- What came of the transmissions. -/
def results (l : List TxEvent) : List Bool :=
  l.filterMap fun | .result ok => some ok | _ => none

/-- What was reported to the upper layer. -/
def reports (l : List TxEvent) : List DriverError :=
  l.filterMap fun | .report e => some e | _ => none

/-- The random numbers drawn. -/
def randoms (l : List TxEvent) : List (BitVec 32) :=
  l.filterMap fun | .random r => some r | _ => none

/-- The pauses. -/
def pauses (l : List TxEvent) : List (BitVec 32) :=
  l.filterMap fun | .pause us => some us | _ => none

/-- The packages given by the upper layer. -/
def fetches (l : List TxEvent) : List FrameBuffer :=
  l.filterMap fun | .fetched p => some p | _ => none

/-- What was received while waiting for acknowledgements. -/
def heards (l : List TxEvent) : List (Bool × Arr 128) :=
  l.filterMap fun | .heard ok b => some (ok, b) | _ => none

/-- Whether the task has the radio after `l`, if it had it before or not (`held`): it took it and
has not released it since. -/
def holding (held : Bool) (l : List TxEvent) : Bool :=
  l.foldl (fun h e => match e with | .locked => true | .unlocked => false | _ => h) held

/-- The reports that end a package. -/
def terminal (e : DriverError) : Bool := e = .ccaFailed || e = .ackFailed

/-- The reports of retransmissions. -/
def retries (l : List TxEvent) : List Nat :=
  (reports l).filterMap fun | .ackRetry n => some n | _ => none

/-- How a package ended is reported iff it is a failure. -/
def TxOutcome.reported : TxOutcome → List DriverError
  | .ccaFailed => [.ccaFailed]
  | .ackFailed => [.ackFailed]
  | .sent => []
  | .acked => []

/-- None of these receptions is the acknowledgement of `s`. -/
def NoAck (F : RadioFormat) (s : Byte) (hs : List (Bool × Arr 128)) : Prop :=
  ∀ x ∈ hs, ¬ (x.1 = true ∧ ValidAck F s x.2)

/-- When an outcome is justified: `seq` is the acknowledgement that was awaited, `last` the number of
the last transmission and `hs` what was received. -/
def Justified (D : Device) (seq : Option Byte) (last : Nat) (hs : List (Bool × Arr 128)) :
    TxOutcome → Prop
  | .ccaFailed => ∀ s, seq = some s → NoAck D.format s hs
  | .sent => seq = none
  | .ackFailed => last = D.consts.maxFrameRetries ∧ ∃ s, seq = some s ∧ NoAck D.format s hs
  | .acked => ∃ s buffer rest, seq = some s ∧ hs = rest ++ [(true, buffer)] ∧
      ValidAck D.format s buffer ∧ NoAck D.format s rest

end Dot15d4.Spec
