import Verif.Props.CsmaPackage

/-!
# C44, C48, C58: the whole device
-/

namespace Dot15d4.Props
open Dot15d4 Out Spec Csma
open Dot15d4.Sync (Either)

/-! ## Each task makes its own calls -/

/-- Calls of the receive task. -/
def IsRx (e : Csma.Call) : Prop := e.1 = .rx

/-- Calls of the transmit task. -/
def IsTx (e : Csma.Call) : Prop := e.1 = .tx

theorem lift_only {α : Type} (S : Csma.Call → Prop) (x : Out α) :
    (Prog.lift x : Csma.Task α).Only S := by
  cases x <;> trivial

theorem when_only (S : Csma.Call → Prop) (c : Bool) (p : Csma.Task Unit) (h : p.Only S) :
    (Prog.when c p).Only S := by
  cases c
  · trivial
  · exact h

theorem acknowledge_only (D : Device) (a : Bool) (seq : Option Byte) (b : Arr 128) :
    (acknowledge D a seq b).Only IsRx := by
  cases a with
  | false => exact ⟨rfl, fun _ => trivial⟩
  | true =>
    cases seq with
    | none => trivial
    | some s =>
      exact ⟨lift_only _ _, fun _ => ⟨lift_only _ _, fun _ => ⟨lift_only _ _, fun _ =>
        ⟨rfl, fun _ => ⟨rfl, fun _ => trivial⟩⟩⟩⟩⟩

theorem handleReceived_only (D : Device) (s : RxState) (b : Arr 128) :
    (handleReceived D s b).Only IsRx := by
  refine ⟨lift_only _ _, fun v => ?_⟩
  cases v with
  | none => trivial
  | some x => exact ⟨acknowledge_only D _ _ _, rfl⟩

theorem giveUp_only (s : RxState) : (giveUp s).Only IsRx := ⟨rfl, fun _ => trivial⟩

theorem receiveTask_only (D : Device) : (receiveTask D).Only IsRx := by
  intro s
  refine ⟨⟨rfl, fun _ => ⟨when_only _ _ _ rfl, fun _ => ⟨⟨rfl, rfl⟩, ?_⟩⟩⟩, fun _ => trivial⟩
  rintro ⟨r, ob⟩
  cases r with
  | false => exact giveUp_only s
  | true =>
    cases ob with
    | none => exact giveUp_only s
    | some b => exact handleReceived_only D s b

theorem acquireLock_only (held : Bool) : (acquireLock held).Only IsTx := by
  cases held with
  | true => trivial
  | false =>
    intro _
    refine ⟨rfl, fun (r : Bool) => ?_⟩
    cases r with
    | true => trivial
    | false => exact ⟨rfl, fun _ => trivial⟩

theorem performBackoff_only (c : Consts) (bk : Backoff) : (performBackoff c bk).Only IsTx := by
  cases bk with
  | none => trivial
  | exponential be =>
    exact ⟨lift_only _ _, fun _ => ⟨rfl, fun _ => ⟨rfl, fun _ => ⟨rfl, fun _ => ⟨rfl, fun _ =>
      trivial⟩⟩⟩⟩⟩

theorem transmitCca_only (c : Consts) (ch : PhyChannel) (b : Arr 128) (held : Bool)
    (bk : Backoff) : (transmitCca c ch b held bk).Only IsTx := by
  intro s
  show (ccaRound c ch b s).Only IsTx
  rw [ccaRound]
  split
  · refine ⟨acquireLock_only _, fun _ => ⟨rfl, fun (r : Bool) => ?_⟩⟩
    cases r with
    | true => trivial
    | false =>
      refine ⟨rfl, fun _ => ?_⟩
      show Prog.Only _ (ite _ _ _)
      split
      · trivial
      · exact ⟨⟨performBackoff_only _ _, rfl⟩, fun _ => trivial⟩
  · trivial

theorem waitForValidAck_only (F : RadioFormat) (ch : PhyChannel) (seq : Byte) :
    (waitForValidAck F ch seq).Only IsTx := by
  intro _
  refine ⟨rfl, fun (r : Bool × Arr 128) => ?_⟩
  obtain ⟨r, b⟩ := r
  cases r with
  | false => trivial
  | true => exact ⟨lift_only _ _, fun _ => trivial⟩

theorem ackRound_only (D : Device) (b : Arr 128) (seq : Option (Byte × Byte)) (i : Nat) :
    (ackRound D b seq i).Only IsTx := by
  rw [ackRound]
  split
  · refine ⟨transmitCca_only _ _ _ _ _, ?_⟩
    rintro ⟨r, held⟩
    cases r with
    | false => exact ⟨rfl, fun _ => trivial⟩
    | true =>
      cases seq with
      | none => exact ⟨when_only _ _ _ rfl, fun _ => trivial⟩
      | some sq =>
        refine ⟨acquireLock_only _, fun _ => ⟨⟨waitForValidAck_only _ _ _, rfl⟩, fun a =>
          ⟨rfl, fun _ => ?_⟩⟩⟩
        cases a with
        | true => trivial
        | false =>
          refine ⟨rfl, fun _ => ?_⟩
          show Prog.Only _ (ite _ _ _)
          split
          · exact ⟨rfl, fun _ => trivial⟩
          · exact ⟨rfl, fun _ => trivial⟩
  · trivial

theorem reportTaskError_only {α : Type} (r : Except TaskError α) :
    (reportTaskError r).Only IsTx := by
  cases r with
  | ok a => trivial
  | error e => cases e <;> rfl

theorem transmitTask_only (D : Device) : (transmitTask D).Only IsTx := by
  intro _
  refine ⟨⟨rfl, fun _ => ⟨rfl, fun _ => ⟨lift_only _ _, fun _ => ⟨reportTaskError_only _, fun _ =>
    ⟨lift_only _ _, fun _ => ⟨reportTaskError_only _, fun _ => ⟨lift_only _ _, fun _ i =>
      ackRound_only D _ _ i⟩⟩⟩⟩⟩⟩⟩, fun _ => trivial⟩

/-! ## The device -/

/-- What the theorems about a whole device ask of it: a radio that keeps to what its traits say, and
constants within range.  (The defaults are.) -/
structure Sane (D : Device) : Prop where
  format : D.format.Lawful
  maxBe : D.consts.maxBe ≤ 31
  minBe : D.consts.minBe < 65535
  backoffs : 1 ≤ D.consts.maxCsmaBackoffs
  retries : 1 ≤ D.consts.maxFrameRetries

theorem exampleDevice_sane : Sane exampleDevice :=
  ⟨lengthFormat_lawful, by decide, by decide, by decide, by decide⟩

theorem txEvent_rx (ev : Ev CallAns) (h : IsRx ev.eff) : txEvent ev = none := by
  cases ev with
  | start e => obtain ⟨tid, op⟩ := e; cases h; cases op <;> rfl
  | ret e r => obtain ⟨tid, op⟩ := e; cases h; cases op <;> rfl

theorem rxEvent_tx (ev : Ev CallAns) (h : IsTx ev.eff) : rxEvent ev = none := by
  cases ev with
  | start e => obtain ⟨tid, op⟩ := e; cases h; cases op <;> rfl
  | ret e r => obtain ⟨tid, op⟩ := e; cases h; cases op <;> rfl

theorem receiveTask_neutral (D : Device) (hF : D.format.Lawful) :
    Neutral txEvent (receiveTask D) :=
  Neutral.of_only (receiveTask_only D)
    (fun t he => receiveTask_triple D hF [] t .panicked rfl he) txEvent_rx

theorem transmitTask_neutral (D : Device) (h : Sane D) : Neutral rxEvent (transmitTask D) :=
  Neutral.of_only (transmitTask_only D)
    (fun t he => transmitTask_triple D h.format ⟨h.maxBe, h.minBe⟩ h.backoffs h.retries [] t .panicked rfl he)
    rxEvent_tx

theorem runDevice_tx (D : Device) (h : Sane D) :
    Triple txEvent (fun l => l = []) (runDevice D) (fun _ _ => False) (TransmitLog D) := by
  have h0 : TransmitLog D [] := ⟨[], [], rfl, by simp, Or.inl rfl⟩
  refine Triple.bind (R := fun _ l => l = []) (Triple.await_neutral rfl (fun _ => rfl) ?_) ?_
  · rintro l rfl
    exact ⟨h0, fun _ => rfl⟩
  intro _
  refine Triple.bind (R := fun _ _ => False) ?_ (fun _ => Triple.panic fun _ h => h)
  exact Triple.select_left (transmitTask_triple D h.format ⟨h.maxBe, h.minBe⟩ h.backoffs h.retries)
    (receiveTask_neutral D h.format) (fun b => Empty.elim b) (fun c => Empty.elim c)

theorem runDevice_rx (D : Device) (h : Sane D) :
    Triple rxEvent (fun l => l = []) (runDevice D) (fun _ _ => False) (ReceiveLog D) := by
  have h0 : ReceiveLog D [] := ⟨[], [], rfl, by simp, Or.inl rfl⟩
  refine Triple.bind (R := fun _ l => l = []) (Triple.await_neutral rfl (fun _ => rfl) ?_) ?_
  · rintro l rfl
    exact ⟨h0, fun _ => rfl⟩
  intro _
  refine Triple.bind (R := fun _ _ => False) ?_ (fun _ => Triple.panic fun _ h => h)
  exact Triple.select_right (receiveTask_triple D h.format) (transmitTask_neutral D h)
    (fun b => Empty.elim b) (fun c => Empty.elim c)

/-- **C44**.  At every moment of every execution of a device, whatever its surroundings do: what it
did with received buffers is what the specification (`ReceivedOne`) says, one after the other. -/
theorem C44_device (D : Device) (h : Sane D) {t : List (Ev CallAns)} {o : Fin Empty}
    (he : Exec (runDevice D) t o) : ReceiveLog D (t.filterMap rxEvent) := by
  have := runDevice_rx D h [] t o rfl he
  cases o with
  | cut => exact this
  | pending => exact this
  | done a => exact a.elim
  | panicked => exact this.elim

/-- **C48**.  At every moment of every execution of a device, whatever its surroundings do: what it
did with the packages it was given is what the specification (`PackageLog`, read by `C48_package`)
says, one after the other. -/
theorem C48_device (D : Device) (h : Sane D) {t : List (Ev CallAns)} {o : Fin Empty}
    (he : Exec (runDevice D) t o) : TransmitLog D (t.filterMap txEvent) := by
  have := runDevice_tx D h [] t o rfl he
  cases o with
  | cut => exact this
  | pending => exact this
  | done a => exact a.elim
  | panicked => exact this.elim

/-- **C58**.  A device never panics and never returns, whatever its surroundings do. -/
theorem C58_runs_forever (D : Device) (h : Sane D) {t : List (Ev CallAns)} {o : Fin Empty}
    (he : Exec (runDevice D) t o) : o = .cut ∨ o = .pending := by
  have := runDevice_tx D h [] t o rfl he
  cases o with
  | cut => exact Or.inl rfl
  | pending => exact Or.inr rfl
  | done a => exact a.elim
  | panicked => exact this.elim

/-- The same for an executor: whatever the surroundings `ω` answer and however they change between
polls (`sched`), polling the device neither returns nor panics, and what was seen of it is as
specified. -/
theorem C58_polled (D : Device) (h : Sane D) {W : Type} (ω : Prog.World CallAns W) (fuel : Nat)
    (sched : List (W → W)) (w : W) :
    let r := (runDevice D).run ω.record fuel (sched.map fun env x => (env x.1, x.2)) (w, [])
    ((∃ p, r.1 = .pending p) ∨ r.1 = .diverged) ∧
      ReceiveLog D (r.2.2.filterMap rxEvent) ∧ TransmitLog D (r.2.2.filterMap txEvent) := by
  intro r
  obtain ⟨o, he, ho⟩ := run_exec ω fuel sched (runDevice D) w
  refine ⟨?_, C44_device D h he, C48_device D h he⟩
  have h58 := C58_runs_forever D h he
  cases hr : r.1 with
  | pending p => exact Or.inl ⟨p, rfl⟩
  | ready a => exact a.elim
  | panicked =>
    simp only [r] at hr
    rw [hr] at ho
    simp only at ho
    rw [ho] at h58
    simp at h58
  | diverged => exact Or.inr rfl

/-! ## Two histories -/

/-- The surroundings of the examples: the upper layer has one package for the device (`pkg`), the
radio receives `rx` for the receive task and `ack` for the transmit task, once each; everything else
answers at once. The state: what has been given out, and whether the lock is free. -/
structure Script where
  pkg : Option FrameBuffer
  rx : Option (Arr 128)
  ack : Option (Arr 128)
  free : Bool

/-- How they answer. -/
def scripted : Prog.World CallAns Script where
  start e w := match e with
    | (_, .radioTransmit _ _) => (some true, w)
    | (_, .driverTransmit) => match w.pkg with
      | some p => (some p, { w with pkg := none })
      | none => (none, w)
    | (_, .tryLock) => (some w.free, { w with free := false })
    | (.rx, .radioReceive _) => match w.rx with
      | some b => (some (true, b), { w with rx := none })
      | none => (none, w)
    | (.tx, .radioReceive _) => match w.ack with
      | some b => (some (true, b), { w with ack := none })
      | none => (none, w)
    | (_, .rngNext) => (some 5#32, w)
    | (_, .driverReceived _) => (some (), w)
    | (_, .driverError _) => (some (), w)
    | (_, .yieldNow) => (some (), w)
    | (_, .lock) => if w.free then (some (), { w with free := false }) else (none, w)
    | (_, .unlock) => (some (), { w with free := true })
    | (_, .sendSignal) => (none, w)
    | (_, .recvSignal) => (none, w)
    | (_, .rngLock) => (some (), w)
    | (_, .rngUnlock) => (some (), w)
    | (.tx, .delay _) => (none, w)
    | (.rx, .delay _) => (some (), w)
    | (_, .radioEnable) => (some (), w)
  poll _ w := (none, w)

/-- Padding to a buffer. -/
def padded (b : Bytes) : Arr 128 :=
  ⟨(b ++ List.replicate 128 0).take 128, by simp⟩

/-- A unicast data frame for the example device, with sequence number 9, asking for an
acknowledgement. -/
def askingFrame : Arr 128 :=
  padded ([12] ++ ({ toShort ⟨[7, 8], rfl⟩ 0xffff with o0 := 0x61 } : Header).bytes)

set_option maxRecDepth 20000 in
/-- The device acknowledges and delivers. -/
example : ∃ t, Exec (runDevice exampleDevice) t .pending ∧
    t.filterMap rxEvent = [.got askingFrame, .pause 500,
      .send (padded [3, 2, 0x10, 9]) ⟨.c26, false⟩, .deliver ⟨askingFrame, true⟩] := by
  obtain ⟨t, h1, h2⟩ := poll_outcome scripted 5 (runDevice exampleDevice)
    ⟨none, some askingFrame, none, true⟩ []
  refine ⟨t, outcome_pending h2, ?_⟩
  rw [List.nil_append] at h1
  rw [← h1]
  rfl

/-- A package: the same frame without the request bit and with the PAN id 0xffff. -/
def examplePackage : FrameBuffer :=
  ⟨padded ([12] ++ (toShort ⟨[7, 8], rfl⟩ 0xffff).bytes), false⟩

set_option maxRecDepth 20000 in
/-- It is transmitted with the request bit set, and acknowledged. -/
example : ∃ t, Exec (runDevice exampleDevice) t .pending ∧
    t.filterMap txEvent = [.fetched examplePackage, .locked, .attempt askingFrame ⟨.c26, true⟩,
      .result true, .listen ⟨.c26⟩, .heard true (padded [3, 2, 0x10, 9]), .unlocked] := by
  obtain ⟨t, h1, h2⟩ := poll_outcome scripted 5 (runDevice exampleDevice)
    ⟨some examplePackage, none, some (padded [3, 2, 0x10, 9]), true⟩ []
  refine ⟨t, outcome_pending h2, ?_⟩
  rw [List.nil_append] at h1
  rw [← h1]
  rfl

/-- A sniffing device (one that does not ignore the frames of others) acknowledges frames addressed
to others: C44 is about the frames passed on, not about the frames for the device. -/
theorem C44_sniffer_acks : ∃ (D : Device) (h : Header), Sane D ∧
    ¬ ForUs D.consts.panId D.consts.implicitBroadcast D.hardwareAddress h ∧
    PassedOn D h ∧ AcksFrame D.config h ∧ h.seq.isSome = true ∧ D.config.ackEverything = false := by
  refine ⟨{ exampleDevice with config := { ignoreNotForUs := false } },
    { toShort ⟨[1, 1], rfl⟩ 0xffff with o0 := 0x61 }, ⟨lengthFormat_lawful, by decide, by decide,
      by decide, by decide⟩, ?_, ⟨Or.inr rfl, by decide⟩, Or.inr ⟨by decide, Or.inr ⟨⟨_, rfl, by decide⟩, rfl⟩⟩,
      rfl, rfl⟩
  rintro ⟨-, h | h | h⟩
  · exact absurd h (by decide)
  · exact absurd h (by decide)
  · exact absurd h (by decide)

end Dot15d4.Props
