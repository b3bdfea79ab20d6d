import Verif.Props.CsmaLock

/-!
# C59: the calls of the device; C57: the random number generator
-/

namespace Dot15d4.Props
open Dot15d4 Out Spec Csma
open Dot15d4.Sync (Either)

/-- The calls of the receive task. -/
def RxCall (D : Device) (e : Csma.Call) : Prop :=
  e.1 = .rx ∧ match e.2 with
    | .yieldNow => True
    | .lock => True
    | .unlock => True
    | .recvSignal => True
    | .driverReceived b => b.dirty = true
    | .delay _ => True
    | .radioTransmit _ cfg => cfg = ⟨D.config.channel, false⟩
    | .radioReceive cfg => cfg = ⟨D.config.channel⟩
    | _ => False

/-- The calls of the transmit task. -/
def TxCall (D : Device) (e : Csma.Call) : Prop :=
  e.1 = .tx ∧ match e.2 with
    | .driverTransmit => True
    | .driverError e => e ≠ .radioError
    | .yieldNow => True
    | .tryLock => True
    | .unlock => True
    | .sendSignal => True
    | .radioTransmit _ cfg => cfg = ⟨D.config.channel, true⟩
    | .radioReceive cfg => cfg = ⟨D.config.channel⟩
    | .rngLock => True
    | .rngNext => True
    | .rngUnlock => True
    | .delay _ => True
    | _ => False

set_option hygiene false in
/-- Which call it is, is seen. -/
local macro "cl" : term =>
  `(by first | exact ⟨rfl, trivial⟩ | exact ⟨rfl, rfl⟩ | exact ⟨rfl, by simp⟩)

theorem acknowledge_calls (D : Device) (a : Bool) (seq : Option Byte) (b : Arr 128) :
    (acknowledge D a seq b).Only (RxCall D) := by
  cases a with
  | false => exact ⟨cl, fun _ => trivial⟩
  | true =>
    cases seq with
    | none => trivial
    | some s =>
      exact ⟨lift_only _ _, fun _ => ⟨lift_only _ _, fun _ => ⟨lift_only _ _, fun _ =>
        ⟨cl, fun _ => ⟨cl, fun _ => trivial⟩⟩⟩⟩⟩

theorem handleReceived_calls (D : Device) (s : RxState) (b : Arr 128) :
    (handleReceived D s b).Only (RxCall D) := by
  refine ⟨lift_only _ _, fun v => ?_⟩
  cases v with
  | none => trivial
  | some x => exact ⟨acknowledge_calls D _ _ _, cl⟩

theorem giveUp_calls (D : Device) (s : RxState) : (giveUp s).Only (RxCall D) := ⟨cl, fun _ => trivial⟩

theorem receiveTask_calls (D : Device) : (receiveTask D).Only (RxCall D) := by
  intro s
  refine ⟨⟨cl, fun _ => ⟨when_only _ _ _ cl, fun _ => ⟨⟨cl, cl⟩, ?_⟩⟩⟩, fun _ => trivial⟩
  rintro ⟨r, ob⟩
  cases r with
  | false => exact giveUp_calls D s
  | true =>
    cases ob with
    | none => exact giveUp_calls D s
    | some b => exact handleReceived_calls D s b

theorem acquireLock_calls (D : Device) (held : Bool) : (acquireLock held).Only (TxCall D) := by
  cases held with
  | true => trivial
  | false =>
    intro _
    refine ⟨cl, fun (r : Bool) => ?_⟩
    cases r with
    | true => trivial
    | false => exact ⟨cl, fun _ => trivial⟩

theorem performBackoff_calls (D : Device) (c : Consts) (bk : Backoff) : (performBackoff c bk).Only (TxCall D) := by
  cases bk with
  | none => trivial
  | exponential be =>
    exact ⟨lift_only _ _, fun _ => ⟨cl, fun _ => ⟨cl, fun _ => ⟨cl, fun _ => ⟨cl, fun _ =>
      trivial⟩⟩⟩⟩⟩

theorem transmitCca_calls (D : Device) (c : Consts) (b : Arr 128) (held : Bool)
    (bk : Backoff) : (transmitCca c D.config.channel b held bk).Only (TxCall D) := by
  intro s
  show (ccaRound c D.config.channel b s).Only (TxCall D)
  rw [ccaRound]
  split
  · refine ⟨acquireLock_calls D _, fun _ => ⟨cl, fun (r : Bool) => ?_⟩⟩
    cases r with
    | true => trivial
    | false =>
      refine ⟨cl, fun _ => ?_⟩
      show Prog.Only _ (ite _ _ _)
      split
      · trivial
      · exact ⟨⟨performBackoff_calls D _ _, cl⟩, fun _ => trivial⟩
  · trivial

theorem waitForValidAck_calls (D : Device) (F : RadioFormat) (seq : Byte) :
    (waitForValidAck F D.config.channel seq).Only (TxCall D) := by
  intro _
  refine ⟨cl, fun (r : Bool × Arr 128) => ?_⟩
  obtain ⟨r, b⟩ := r
  cases r with
  | false => trivial
  | true => exact ⟨lift_only _ _, fun _ => trivial⟩

theorem ackRound_calls (D : Device) (b : Arr 128) (seq : Option (Byte × Byte)) (i : Nat) :
    (ackRound D b seq i).Only (TxCall D) := by
  rw [ackRound]
  split
  · refine ⟨transmitCca_calls D _ _ _ _, ?_⟩
    rintro ⟨r, held⟩
    cases r with
    | false => exact ⟨cl, fun _ => trivial⟩
    | true =>
      cases seq with
      | none => exact ⟨when_only _ _ _ cl, fun _ => trivial⟩
      | some sq =>
        refine ⟨acquireLock_calls D _, fun _ => ⟨⟨waitForValidAck_calls D _ _, cl⟩, fun a =>
          ⟨cl, fun _ => ?_⟩⟩⟩
        cases a with
        | true => trivial
        | false =>
          refine ⟨cl, fun _ => ?_⟩
          show Prog.Only _ (ite _ _ _)
          split
          · exact ⟨cl, fun _ => trivial⟩
          · exact ⟨cl, fun _ => trivial⟩
  · trivial

theorem reportTaskError_calls (D : Device) {α : Type} (r : Except TaskError α) :
    (reportTaskError r).Only (TxCall D) := by
  cases r with
  | ok a => trivial
  | error e => cases e <;> exact cl

theorem transmitTask_calls (D : Device) : (transmitTask D).Only (TxCall D) := by
  intro _
  refine ⟨⟨cl, fun _ => ⟨cl, fun _ => ⟨lift_only _ _, fun _ => ⟨reportTaskError_calls D _, fun _ =>
    ⟨lift_only _ _, fun _ => ⟨reportTaskError_calls D _, fun _ => ⟨lift_only _ _, fun _ i =>
      ackRound_calls D _ _ i⟩⟩⟩⟩⟩⟩⟩, fun _ => trivial⟩

/-! ## The random number generator -/

theorem rng_unseen {e : Csma.Call} (h : match e.2 with
    | .rngLock => False
    | .rngUnlock => False
    | .rngNext => False
    | .delay _ => e.1 = .rx
    | _ => True) (s : Bool) :
    rngStep s (.start e) = some s ∧ ∀ r, rngStep s (.ret e r) = some s := by
  obtain ⟨i, op⟩ := e
  cases op <;> first | exact h.elim | exact ⟨rfl, fun _ => rfl⟩ | skip
  simp only at h
  subst h
  exact ⟨rfl, fun _ => rfl⟩

theorem rng_delay (us : BitVec 32) :
    Keeps rngStep false (tx (.delay us)) (fun _ s => s = false) (fun s => s = false) :=
  Keeps.await (s1 := false) rfl rfl fun _ => ⟨false, rfl, rfl⟩

theorem performBackoff_rng (c : Consts) (bk : Backoff) :
    Keeps rngStep false (performBackoff c bk) (fun _ s => s = false) (fun _ => True) := by
  cases bk with
  | none => exact Keeps.pure rfl
  | exponential be =>
    refine Keeps.bind (R := fun _ s => s = false) (Keeps.lift fun _ _ => rfl) ?_
    rintro _ s rfl
    refine Keeps.bind (R := fun _ s => s = true)
      (Keeps.await (s1 := false) rfl trivial fun _ => ⟨true, rfl, rfl⟩) ?_
    rintro _ s rfl
    refine Keeps.bind (R := fun _ s => s = true)
      (Keeps.await (s1 := true) rfl trivial fun _ => ⟨true, rfl, rfl⟩) ?_
    rintro _ s rfl
    refine Keeps.bind (R := fun _ s => s = false)
      (Keeps.await (s1 := false) rfl trivial fun _ => ⟨false, rfl, rfl⟩) ?_
    rintro _ s rfl
    refine Keeps.bind ((rng_delay _).conseq (fun _ _ h => h) (fun _ _ => trivial)) ?_
    rintro _ s rfl
    exact Keeps.pure rfl

/-- Calls the generator's protocol does not see. -/
def NotRng (e : Csma.Call) : Prop :=
  match e.2 with
  | .rngLock => False
  | .rngUnlock => False
  | .rngNext => False
  | .delay _ => e.1 = .rx
  | _ => True

theorem unseen_notRng {α : Type} {p : Csma.Task α} (h : p.Only NotRng) : Unseen rngStep p :=
  Only.mono (fun _ he s => rng_unseen he s) h

theorem notRng_keeps {α : Type} {p : Csma.Task α} (h : p.Only NotRng) :
    Keeps rngStep false p (fun _ s => s = false) (fun _ => True) :=
  (unseen_notRng h).keeps (fun _ => rfl) trivial

theorem acquireLock_notRng (held : Bool) : (acquireLock held).Only NotRng := by
  cases held with
  | true => trivial
  | false =>
    intro _
    refine ⟨trivial, fun (r : Bool) => ?_⟩
    cases r with
    | true => trivial
    | false => exact ⟨trivial, fun _ => trivial⟩

theorem transmitCca_rng (c : Consts) (ch : PhyChannel) (b : Arr 128) (held : Bool)
    (bk : Backoff) :
    Keeps rngStep false (transmitCca c ch b held bk) (fun _ s => s = false) (fun _ => True) := by
  refine Keeps.loop (I := fun (x : CcaState) s => s = false) rfl ?_
  rintro x s rfl
  rw [ccaRound]
  split
  · refine Keeps.bind (notRng_keeps (acquireLock_notRng _)) ?_
    rintro _ s' rfl
    refine Keeps.bind (notRng_keeps (p := tx _) trivial) ?_
    rintro (r : Bool) s' rfl
    cases r with
    | true => exact Keeps.pure rfl
    | false =>
      refine Keeps.bind (notRng_keeps (p := tx _) trivial) ?_
      rintro _ s' rfl
      show Keeps _ _ (ite _ _ _) _ _
      split
      · exact Keeps.pure rfl
      · refine Keeps.bind (R := fun _ s' => s' = false)
          (Keeps.join_left (performBackoff_rng c _) (unseen_notRng (p := tx _) trivial)
            (fun _ _ _ h => h) (fun _ _ _ => trivial)) ?_
        rintro _ s' rfl
        exact Keeps.pure rfl
  · exact Keeps.pure rfl

theorem waitForValidAck_notRng (F : RadioFormat) (ch : PhyChannel) (seq : Byte) :
    (waitForValidAck F ch seq).Only NotRng := by
  intro _
  refine ⟨trivial, fun (r : Bool × Arr 128) => ?_⟩
  obtain ⟨r, b⟩ := r
  cases r with
  | false => trivial
  | true => exact ⟨lift_only _ _, fun _ => trivial⟩

/-- Waiting for an acknowledgement with a timeout. -/
theorem await_ack_rng (F : RadioFormat) (ch : PhyChannel) (seq : Byte) (us : BitVec 32) :
    Keeps rngStep false (.select (waitForValidAck F ch seq) (tx (.delay us)) (fun r => r.isFirst))
      (fun _ s => s = false) (fun s => s = false) :=
  Keeps.select_right (rng_delay us) (unseen_notRng (waitForValidAck_notRng F ch seq))
    (fun _ => rfl) (fun _ _ h => h) (fun _ _ h => h)

theorem ackRound_rng (D : Device) (b : Arr 128) (seq : Option (Byte × Byte)) (i : Nat) :
    Keeps rngStep false (ackRound D b seq i) (fun _ s => s = false) (fun _ => True) := by
  rw [ackRound]
  split
  · refine Keeps.bind (transmitCca_rng _ _ _ false _) ?_
    rintro ⟨r, held⟩ s' rfl
    cases r with
    | false =>
      refine Keeps.bind (notRng_keeps (p := tx _) trivial) ?_
      rintro _ s' rfl
      exact Keeps.pure rfl
    | true =>
      cases seq with
      | none =>
        refine Keeps.bind (notRng_keeps (when_only _ held (tx .unlock) trivial)) ?_
        rintro _ s' rfl
        exact Keeps.pure rfl
      | some sq =>
        refine Keeps.bind (notRng_keeps (acquireLock_notRng held)) ?_
        rintro _ s' rfl
        refine Keeps.bind ((await_ack_rng _ _ _ _).conseq (fun _ _ h => h) (fun _ _ => trivial)) ?_
        rintro a s' rfl
        refine Keeps.bind (notRng_keeps (p := tx _) trivial) ?_
        rintro _ s' rfl
        cases a with
        | true => exact Keeps.pure rfl
        | false =>
          refine Keeps.bind ((rng_delay _).conseq (fun _ _ h => h) (fun _ _ => trivial)) ?_
          rintro _ s' rfl
          show Keeps _ _ (ite _ _ _) _ _
          split
          · refine Keeps.bind (notRng_keeps (p := tx _) trivial) ?_
            rintro _ s' rfl
            exact Keeps.pure rfl
          · refine Keeps.bind (notRng_keeps (p := tx _) trivial) ?_
            rintro _ s' rfl
            exact Keeps.pure rfl
  · exact Keeps.pure rfl

theorem reportTaskError_notRng {α : Type} (r : Except TaskError α) :
    (reportTaskError r).Only NotRng := by
  cases r with
  | ok a => trivial
  | error e => cases e <;> trivial

theorem transmitTask_rng (D : Device) :
    Keeps rngStep false (transmitTask D) (fun _ _ => True) (fun _ => True) := by
  refine Keeps.loop (I := fun _ s => s = false) rfl ?_
  rintro _ s rfl
  refine Keeps.bind (R := fun _ s => s = false) ?_ ?_
  · refine Keeps.bind (notRng_keeps (p := tx _) trivial) ?_
    rintro _ s rfl
    refine Keeps.bind (notRng_keeps (p := tx _) trivial) ?_
    rintro _ s rfl
    refine Keeps.bind (R := fun _ s => s = false) (Keeps.lift fun _ _ => rfl) ?_
    rintro _ s rfl
    refine Keeps.bind (notRng_keeps (reportTaskError_notRng _)) ?_
    rintro _ s rfl
    refine Keeps.bind (R := fun _ s => s = false) (Keeps.lift fun _ _ => rfl) ?_
    rintro _ s rfl
    refine Keeps.bind (notRng_keeps (reportTaskError_notRng _)) ?_
    rintro _ s rfl
    refine Keeps.bind (R := fun _ s => s = false) (Keeps.lift fun _ _ => rfl) ?_
    rintro _ s rfl
    refine Keeps.loop (I := fun _ s => s = false) rfl ?_
    rintro i s rfl
    exact (ackRound_rng D _ _ i).conseq (fun r s h => by cases r <;> exact h) (fun _ h => h)
  · rintro _ s rfl
    exact Keeps.pure rfl

theorem rxCall_notRng {D : Device} (e : Csma.Call) (h : RxCall D e) : NotRng e := by
  obtain ⟨i, op⟩ := e
  obtain ⟨h1, h2⟩ := h
  cases op <;> first | exact h2.elim | exact trivial | exact h1

/-- **C57** for the random number generator: at every moment of every execution of a device it has
been drawn from only while locked, and the lock was given back before the backoff pause. -/
theorem C57_generator (D : Device) {t : List (Ev CallAns)} {o : Fin Empty}
    (he : Exec (runDevice D) t o) : walk rngStep false t ≠ none := by
  have key : Keeps rngStep false (runDevice D) (fun _ _ => True) (fun _ => True) := by
    refine Keeps.bind (notRng_keeps (p := tx _) trivial) ?_
    rintro _ s rfl
    refine Keeps.bind (R := fun _ _ => True) ?_ (fun _ _ _ => Keeps.panic)
    exact Keeps.select_left (transmitTask_rng D)
      (unseen_notRng (Only.mono (rxCall_notRng (D := D)) (receiveTask_calls D)))
      (fun _ _ _ => trivial) (fun _ _ _ => trivial)
  obtain ⟨s', h, -⟩ := key t o he
  rw [h]
  simp

/-- The surroundings of `scripted`, with a channel that is never clear. -/
def busyAir : Prog.World CallAns Script where
  start e w := match e with
    | (_, .radioTransmit _ _) => (some false, w)
    | e => scripted.start e w
  poll _ w := (none, w)

set_option maxRecDepth 40000 in
/-- A history in which the generator is used. -/
example :
    let r := (runDevice exampleDevice).run (deviceWorld busyAir).record 5
      (([id, id, id].map onBase).map fun env x => (env x.1, x.2))
      ({ base := ⟨some examplePackage, none, none, true⟩ }, [])
    r.2.2.filterMap txEvent = [.fetched examplePackage, .locked, .attempt askingFrame ⟨.c26, true⟩,
      .result false, .unlocked, .random 5, .pause 320, .report (.ccaBackoff 1)] ∧
    walk rngStep false r.2.2 = some false := by
  refine ⟨rfl, rfl⟩

/-! ## Which calls -/

theorem runDevice_calls (D : Device) :
    (runDevice D).Only fun e => e = (.tx, .radioEnable) ∨ TxCall D e ∨ RxCall D e :=
  ⟨Or.inl rfl, fun _ => ⟨⟨Only.mono (fun _ h => Or.inr (Or.inl h)) (transmitTask_calls D),
    Only.mono (fun _ h => Or.inr (Or.inr h)) (receiveTask_calls D)⟩, fun _ => trivial⟩⟩

/-- **C59**.  At every moment of every execution of every device: every transmission was on the
configured channel, with clear channel assessment iff it was the transmit task's, and every
reception was on that channel. -/
theorem C59_channel (D : Device) {t : List (Ev CallAns)} {o : Fin Empty}
    (he : Exec (runDevice D) t o) (ev : Ev CallAns) (hev : ev ∈ t) :
    (∀ i b cfg, ev.eff = (i, .radioTransmit b cfg) →
      cfg.channel = D.config.channel ∧ (cfg.cca = true ↔ i = .tx)) ∧
    (∀ i cfg, ev.eff = (i, .radioReceive cfg) → cfg.channel = D.config.channel) := by
  have h := he.only (runDevice_calls D) ev hev
  refine ⟨fun i b cfg e => ?_, fun i cfg e => ?_⟩
  · rw [e] at h
    rcases h with h | ⟨h1, h2⟩ | ⟨h1, h2⟩
    · cases h
    · cases h1
      have h2 : cfg = _ := h2
      subst h2
      exact ⟨rfl, by simp⟩
    · cases h1
      have h2 : cfg = _ := h2
      subst h2
      exact ⟨rfl, by simp⟩
  · rw [e] at h
    rcases h with h | ⟨h1, h2⟩ | ⟨h1, h2⟩
    · cases h
    · have h2 : cfg = _ := h2
      rw [h2]
    · have h2 : cfg = _ := h2
      rw [h2]

/-- **C59**, the rest: the transmit task never reports a radio error, the receive task only hands
over buffers marked as filled, only the transmit task fetches packages, reports errors and uses the
random number generator, and only the receive task delivers. -/
theorem C59_calls (D : Device) {t : List (Ev CallAns)} {o : Fin Empty}
    (he : Exec (runDevice D) t o) (ev : Ev CallAns) (hev : ev ∈ t) :
    (∀ i e, ev.eff = (i, .driverError e) → i = .tx ∧ e ≠ .radioError) ∧
    (∀ i b, ev.eff = (i, .driverReceived b) → i = .rx ∧ b.dirty = true) ∧
    (∀ i, ev.eff = (i, .driverTransmit) → i = .tx) ∧
    (∀ i, ev.eff = (i, .rngNext) → i = .tx) := by
  have h := he.only (runDevice_calls D) ev hev
  refine ⟨fun i e e' => ?_, fun i b e' => ?_, fun i e' => ?_, fun i e' => ?_⟩ <;> rw [e'] at h <;>
    rcases h with h | ⟨h1, h2⟩ | ⟨h1, h2⟩ <;>
    first | cases h | exact ⟨h1, h2⟩ | exact h1 | exact h2.elim

end Dot15d4.Props
