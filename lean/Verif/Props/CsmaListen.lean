import Verif.Lemmas.Rests
import Verif.Props.CsmaFair

/-!
# C66: the receiver is never deaf
-/

namespace Dot15d4.Spec
open Dot15d4 Csma

/-- Does the transmit task have the radio for a transmission, or for an acknowledgement it awaits,
with a running timeout? -/
def txAtWork (D : Device) (waits : List Csma.Call) : Prop :=
  (∃ b c, (Tid.tx, Op.radioTransmit b c) ∈ waits) ∨
  ((∃ c, (Tid.tx, Op.radioReceive c) ∈ waits) ∧
    (Tid.tx, Op.delay (ackTimeout D.consts)) ∈ waits)

/-- The calls whose answer comes from the outside: the radio, timers, the upper layer and the random
number generator. -/
def outside : Csma.Call → Bool
  | (_, .radioEnable) => true
  | (_, .radioTransmit _ _) => true
  | (_, .radioReceive _) => true
  | (_, .delay _) => true
  | (_, .driverTransmit) => true
  | (_, .driverReceived _) => true
  | (_, .driverError _) => true
  | (_, .rngNext) => true
  | _ => false

end Dot15d4.Spec

namespace Dot15d4.Props
open Dot15d4 Out Spec Csma
open Dot15d4.Sync (Either)

/-! ## The transmit task -/

/-- How the transmit task uses the radio, and what it waits for then. -/
def TxWaits (D : Device) (s : RadioUse) (l : List Csma.Call) : Prop :=
  match s with
  | .free => True
  | .held => False
  | .transmitting => ∃ b c, (Tid.tx, Op.radioTransmit b c) ∈ l
  | .receiving => (∃ c, (Tid.tx, Op.radioReceive c) ∈ l) ∧
      (Tid.tx, Op.delay (ackTimeout D.consts)) ∈ l

abbrev TxHolds {α : Type} (D : Device) (p : Csma.Task α) (s : RadioUse)
    (Q : α → RadioUse → Prop) : Prop := Holds (radioStep .tx) p s Q (TxWaits D)

theorem rests_true {α : Type} (p : Csma.Task α) {L : List Csma.Call → Prop} (h : ∀ l, L l) :
    p.Rests L := by
  induction p generalizing L with
  | pure a => trivial
  | call e k => exact h _
  | wait e k => exact h _
  | bind p k ihp ihk => exact ⟨ihp h, fun b => ihk b h⟩
  | join p q k ihp ihq => exact ⟨ihp h, ihq h, ihp fun l => ihq fun l' => h _⟩
  | select p q k ihp ihq => exact ihp fun l => ihq fun l' => h _
  | loop body s ih => exact fun s => ih s h
  | panic => trivial

variable (D : Device)

/-- A call the protocol does not see, made without the radio. -/
theorem TxHolds.other {e : Csma.Call} (h : NotRadio e) :
    TxHolds D (Prog.await e) .free (fun _ s' => s' = .free) :=
  ⟨.free, (notRadio_unseen .tx e h _).1, trivial, fun r =>
    ⟨.free, (notRadio_unseen .tx e h _).2 r, rfl⟩⟩

theorem TxHolds.unlock {s : RadioUse} (h : Holding s) :
    TxHolds D (tx .unlock) s (fun _ s' => s' = .free) := by
  refine ⟨.free, ?_, trivial, fun r => ⟨.free, rfl, rfl⟩⟩
  rcases h with rfl | rfl <;> simp [radioStep, radioEv, RadioUse.next]

theorem TxHolds.transmit {b : Arr 128} {cfg : TxConfig} :
    TxHolds D (tx (.radioTransmit b cfg)) .held (fun _ s' => s' = .held) :=
  ⟨.transmitting, by simp [radioStep, radioEv, RadioUse.next], ⟨b, cfg, by simp⟩, fun r =>
    ⟨.held, by simp [radioStep, radioEv, RadioUse.next], rfl⟩⟩

theorem TxHolds.bind {α β : Type} {p : Csma.Task β} {k : β → Csma.Task α} {s : RadioUse}
    {R : β → RadioUse → Prop} {Q : α → RadioUse → Prop} (hp : TxHolds D p s R)
    (hk : ∀ b s', R b s' → TxHolds D (k b) s' Q) : TxHolds D (.bind p k) s Q :=
  Holds.mono (p := p) hp hk fun _ _ h => h

theorem TxHolds.lift {α : Type} {x : Out α} {Q : α → RadioUse → Prop} {s : RadioUse}
    (h : ∀ a, Q a s) : TxHolds D (Prog.lift x) s Q := by
  cases x with
  | ok a => exact h a
  | err => trivial
  | panic => trivial

theorem acquireLock_holds (held : Bool) :
    TxHolds D (acquireLock held) (useOf held) (fun _ s' => s' = .held) := by
  cases held with
  | true => exact rfl
  | false =>
    refine ⟨fun _ s => s = .free, rfl, ?_⟩
    rintro _ s rfl
    refine TxHolds.bind D (R := fun (r : Bool) s' => s' = useOf r) ?_ ?_
    · refine ⟨.free, rfl, trivial, fun (r : Bool) => ⟨useOf r, ?_, rfl⟩⟩
      cases r <;> rfl
    · rintro r s' rfl
      cases r with
      | true => exact rfl
      | false =>
        refine TxHolds.bind D (TxHolds.other D trivial) ?_
        rintro _ s' rfl
        exact rfl

theorem transmitCca_holds (c : Consts) (ch : PhyChannel) (b : Arr 128) (held : Bool)
    (bk : Backoff) :
    TxHolds D (transmitCca c ch b held bk) (useOf held)
      (fun r s' => s' = useOf r.2 ∧ (r.1 = false → r.2 = false)) := by
  refine ⟨fun (x : CcaState) s => s = useOf x.held, rfl, ?_⟩
  rintro x s rfl
  rw [ccaRound]
  split
  · refine TxHolds.bind D (acquireLock_holds D x.held) ?_
    rintro _ s' rfl
    refine TxHolds.bind D (TxHolds.transmit D) ?_
    rintro (r : Bool) s' rfl
    cases r with
    | true => exact ⟨rfl, fun h => h⟩
    | false =>
      refine TxHolds.bind D (TxHolds.unlock D (Or.inl rfl)) ?_
      rintro _ s' rfl
      show TxHolds D (ite _ _ _) _ _
      split
      · exact ⟨rfl, fun h => h⟩
      · refine TxHolds.bind D (R := fun _ s' => s' = .free) ?_ ?_
        · refine Unseen.holds (p := Prog.join _ _ _) ?_ (fun _ => rfl) (rests_true _ fun _ => trivial)
          exact ⟨unseen_notRadio .tx (performBackoff_notRadio c _),
            unseen_notRadio .tx (p := tx _) trivial⟩
        · rintro _ s' rfl
          exact rfl
  · exact ⟨rfl, fun h => absurd h (by simp)⟩

/-- Awaiting an acknowledgement, with what is waited for besides. -/
theorem waitForValidAck_holds (F : RadioFormat) (ch : PhyChannel) (seq : Byte)
    {V : RadioUse → List Csma.Call → Prop} (hV : ∀ c, V .receiving [(Tid.tx, Op.radioReceive c)]) :
    Holds (radioStep .tx) (waitForValidAck F ch seq) .held (fun _ s' => s' = .held) V := by
  refine ⟨fun _ s => s = .held, rfl, ?_⟩
  rintro _ s rfl
  refine Holds.mono (p := Prog.await (Ans := CallAns) (Tid.tx, Op.radioReceive _))
    (Q := fun _ s' => s' = .held)
    ⟨.receiving, by simp [radioStep, radioEv, RadioUse.next], hV _, fun r =>
      ⟨.held, by simp [radioStep, radioEv, RadioUse.next], rfl⟩⟩ ?_ fun _ _ h => h
  rintro (r : Bool × Arr 128) s' rfl
  obtain ⟨r, b⟩ := r
  cases r with
  | false => exact rfl
  | true =>
    show Holds _ (Prog.lift _) _ _ _
    cases isValidAck F seq b.1 with
    | ok v => cases v <;> exact rfl
    | err => trivial
    | panic => trivial

theorem when_unlock_holds (held : Bool) :
    TxHolds D (Prog.when held (tx .unlock)) (useOf held) (fun _ s' => s' = .free) := by
  cases held with
  | true => exact TxHolds.unlock D (Or.inl rfl)
  | false => exact rfl

theorem ackRound_holds (b : Arr 128) (seq : Option (Byte × Byte)) (i : Nat) :
    TxHolds D (ackRound D b seq i) .free (fun _ s' => s' = .free) := by
  rw [ackRound]
  split
  · refine TxHolds.bind D (transmitCca_holds D _ _ _ false _) ?_
    rintro ⟨r, held⟩ s' ⟨rfl, hr⟩
    cases r with
    | false =>
      cases hr rfl
      refine TxHolds.bind D (TxHolds.other D trivial) ?_
      rintro _ s' rfl
      exact rfl
    | true =>
      cases seq with
      | none =>
        refine TxHolds.bind D (when_unlock_holds D held) ?_
        rintro _ s' rfl
        exact rfl
      | some sq =>
        refine TxHolds.bind D (acquireLock_holds D held) ?_
        rintro _ s' rfl
        refine TxHolds.bind D (R := fun _ s' => Holding s') ?_ ?_
        · refine ⟨unseen_notRadio .tx (p := tx _) trivial, ?_⟩
          refine (waitForValidAck_holds _ _ _ fun c => ?_).mono (fun _ _ h => Or.inl h)
            fun _ _ h => h
          refine ⟨?_, fun _ => Or.inr rfl⟩
          show TxWaits D .receiving ([_] ++ [_])
          exact ⟨⟨c, by simp⟩, by simp⟩
        intro a s' hs'
        refine TxHolds.bind D (TxHolds.unlock D hs') ?_
        rintro _ s' rfl
        cases a with
        | true => exact rfl
        | false =>
          refine TxHolds.bind D (TxHolds.other D trivial) ?_
          rintro _ s' rfl
          show TxHolds D (ite _ _ _) _ _
          split
          · refine TxHolds.bind D (TxHolds.other D trivial) ?_
            rintro _ s' rfl
            exact rfl
          · refine TxHolds.bind D (TxHolds.other D trivial) ?_
            rintro _ s' rfl
            exact rfl
  · exact rfl

theorem reportTaskError_holds {α : Type} (r : Except TaskError α) :
    TxHolds D (reportTaskError r) .free (fun _ s' => s' = .free) := by
  cases r with
  | ok a => exact rfl
  | error e => cases e <;> exact TxHolds.other D trivial

theorem transmitTask_holds : TxHolds D (transmitTask D) .free (fun _ _ => True) := by
  refine ⟨fun _ s => s = .free, rfl, ?_⟩
  rintro _ s rfl
  refine TxHolds.bind D (R := fun _ s => s = .free) ?_ ?_
  · refine TxHolds.bind D (TxHolds.other D trivial) ?_
    rintro _ s rfl
    refine TxHolds.bind D (TxHolds.other D trivial) ?_
    rintro _ s rfl
    refine TxHolds.bind D (R := fun _ s => s = .free) (TxHolds.lift D fun _ => rfl) ?_
    rintro _ s rfl
    refine TxHolds.bind D (reportTaskError_holds D _) ?_
    rintro _ s rfl
    refine TxHolds.bind D (R := fun _ s => s = .free) (TxHolds.lift D fun _ => rfl) ?_
    rintro _ s rfl
    refine TxHolds.bind D (reportTaskError_holds D _) ?_
    rintro _ s rfl
    refine TxHolds.bind D (R := fun _ s => s = .free) (TxHolds.lift D fun _ => rfl) ?_
    rintro _ s rfl
    refine ⟨fun _ s => s = .free, rfl, ?_⟩
    rintro i s rfl
    exact (ackRound_holds D _ _ i).mono (fun r s h => by cases r <;> exact h) fun _ _ h => h
  · rintro _ s rfl
    exact rfl

/-! ## The device -/

variable {D} {W : Type} (ω : Prog.World CallAns W)

/-- What is left of a device: how the transmit task uses the radio. -/
def TxInv (D : Device) (p : Csma.Task Empty) (l : List (Ev CallAns)) : Prop :=
  ((p = runDevice D ∨ p = devEnabling D) ∧ usage .tx l = some .free) ∨
  ∃ T R s, p = devRun T R ∧ R.Only IsRx ∧ usage .tx l = some s ∧
    TxHolds D T s (fun _ _ => True) ∧ TxWaits D s T.waits

theorem txInv_step {p p' : Csma.Task Empty} {n : Nat} {x x' : Shared W × List (Ev CallAns)}
    (hp : TxInv D p x.2) (h : p.poll (recorded ω) n x = (.pending p', x')) : TxInv D p' x'.2 := by
  have key : ∀ (T R : Csma.Task Empty) (x : Shared W × List (Ev CallAns)) (s : RadioUse),
      R.Only IsRx → usage .tx x.2 = some s → TxHolds D T s (fun _ _ => True) →
      (devRun T R).poll (recorded ω) n x = (.pending p', x') → TxInv D p' x'.2 := by
    intro T R x s hR hs hT h
    obtain ⟨T', R', x1, eT, eR, rfl⟩ := devRun_pending ω h
    have h1 := hT.poll (deviceWorld ω) n hs
    rw [eT] at h1
    obtain ⟨s1, h2, h3, h4⟩ := h1
    have hu : Unseen (radioStep .tx) R :=
      Only.mono (fun e (h : IsRx e) => other_unseen .tx e (by rw [h]; decide)) hR
    have h5 := hu.poll (deviceWorld ω) n h2
    rw [eR] at h5
    exact Or.inr ⟨T', R', s1, rfl, (poll_pending _ _ _ _ _ _ eR).2 _ hR, h5, h3, h4⟩
  rcases hp with ⟨rfl | rfl, hf⟩ | ⟨T, R, s, rfl, hR, hs, hT, -⟩
  · rw [runDevice_eq] at h
    obtain ⟨sh, l⟩ := x
    have hf : usage .tx l = some .free := hf
    rcases e : (deviceWorld ω).start (Tid.tx, Op.radioEnable) sh with ⟨_ | r, sh1⟩
    · rw [poll_bind_pending (poll_await_none (record_start_none ω e))] at h
      cases h
      exact Or.inl ⟨Or.inr rfl, by rw [usage_snoc, hf]; rfl⟩
    · rw [poll_bind_ready (poll_await_some (record_start_some ω e))] at h
      refine key _ _ _ .free (receiveTask_only D) ?_ (transmitTask_holds D) h
      have : l ++ [Ev.start (Ans := CallAns) (Tid.tx, Op.radioEnable), .ret (Tid.tx, Op.radioEnable) r]
        = (l ++ [.start (Tid.tx, Op.radioEnable)]) ++ [.ret (Tid.tx, Op.radioEnable) r] := by simp
      show usage .tx (l ++ _) = _
      rw [this, usage_snoc, usage_snoc, hf]
      rfl
  · rw [devEnabling] at h
    obtain ⟨sh, l⟩ := x
    have hf : usage .tx l = some .free := hf
    rcases e : (deviceWorld ω).poll (Tid.tx, Op.radioEnable) sh with ⟨_ | r, sh1⟩
    · rw [poll_bind_pending (poll_wait_none (record_poll_none ω e))] at h
      cases h
      exact Or.inl ⟨Or.inr rfl, hf⟩
    · rw [poll_bind_ready (poll_wait_some (record_poll_some ω e))] at h
      refine key _ _ _ .free (receiveTask_only D) ?_ (transmitTask_holds D) h
      show usage .tx (l ++ _) = _
      rw [usage_snoc, hf]
      rfl
  · exact key T R x s hR hs hT h

theorem Reached.txInv {n : Nat} {p : Csma.Task Empty} {x : Shared W × List (Ev CallAns)}
    (h : Reached ω D n p x) : TxInv D p x.2 := by
  obtain ⟨sched, w, h⟩ := h
  have key : ∀ (sched : List (W → W)) (p0 : Csma.Task Empty) (x0 : Shared W × List (Ev CallAns)),
      TxInv D p0 x0.2 → p0.run (recorded ω) n (sched.map nextPoll) x0 = (.pending p, x) →
      TxInv D p x.2 := by
    intro sched
    induction sched with
    | nil => intro p0 x0 h1 h; cases h; exact h1
    | cons env sched ih =>
      intro p0 x0 h1 h
      simp only [List.map_cons, Prog.run] at h
      rcases e : p0.poll (recorded ω) n (nextPoll env x0) with ⟨r, x1⟩
      rw [e] at h
      cases r with
      | pending p1 => exact ih p1 x1 (txInv_step ω (x := nextPoll env x0) h1 e) h
      | ready a => exact a.elim
      | panicked => cases h
      | diverged => cases h
  exact key sched _ _ (Or.inl ⟨Or.inl rfl, rfl⟩) h

/-- Where the receive task rests. -/
def RxRests (D : Device) (q : Csma.Task RxState) (sh : Shared W) : Prop :=
  (∃ s, q = yieldW D s ∧ sh.woken = true) ∨ (∃ s, q = lockW D s ∧ sh.radio.locked = true) ∨
  (∃ s, q = listenW D s) ∨ (Handle q ∧ q.waits ≠ [])

theorem rx_rests {q : Csma.Task RxState} {R : Csma.Task Empty} {n : Nat} {F H : Prop} {h0 : Nat}
    {x x' : Shared W × List (Ev CallAns)} (h : RxStep D F H h0 (q.poll (recorded ω) (n + 1) x))
    (eR : (rxCtx D q).poll (recorded ω) (n + 1) x = (.pending R, x')) :
    ∃ q', R = rxCtx D q' ∧ RxRests D q' x'.1 := by
  have hw := poll_pending (recorded ω) (n + 1) q x
  rcases e : q.poll (recorded ω) (n + 1) x with ⟨r, x1⟩
  rw [e] at h
  rw [rxCtx] at eR
  cases r with
  | pending q' =>
    rw [poll_bind_pending (poll_bind_pending e)] at eR
    cases eR
    refine ⟨q', rfl, ?_⟩
    rcases h with ⟨s, rfl, h1, h2⟩ | ⟨h1, h2, h3⟩ | ⟨s, rfl, h1⟩
    · exact Or.inr (Or.inl ⟨s, rfl, h1⟩)
    · exact Or.inr (Or.inr (Or.inr ⟨h1, (hw _ _ e).1⟩))
    · exact Or.inr (Or.inr (Or.inl ⟨s, rfl⟩))
  | ready s =>
    obtain ⟨sh, l⟩ := x1
    have e1 : (Prog.bind q fun s => (.pure (.inl s) : Csma.Task (Sum RxState Empty))).poll
        (recorded ω) (n + 1) x = (.ready (Sum.inl s), (sh, l)) := poll_bind_ready e
    rw [poll_bind_ready e1] at eR
    change (Prog.loop (rxBody D) s).poll (recorded ω) (n + 1) (sh, l) = _ at eR
    rw [rxLoop_poll] at eR
    cases eR
    exact ⟨_, rfl, Or.inl ⟨s, rfl, by simp [Shared.wake]⟩⟩
  | panicked => rw [poll_bind_panicked (poll_bind_panicked e)] at eR; cases eR
  | diverged => exact h.elim

theorem rests_step {p p' : Csma.Task Empty} {n : Nat} {x x' : Shared W × List (Ev CallAns)}
    (hp : p = runDevice D ∨ p = devEnabling D ∨ ∃ T q, p = devRun T (rxCtx D q) ∧ Good T ∧
      RxInner D q) (hs : SoundSignal x.1)
    (h : p.poll (recorded ω) (n + 1) x = (.pending p', x')) :
    p' = devEnabling D ∨ ∃ T q, p' = devRun T (rxCtx D q) ∧ RxRests D q x'.1 := by
  have key : ∀ (T R : Csma.Task Empty) (x : Shared W × List (Ev CallAns)), SoundSignal x.1 →
      (R = receiveTask D ∨ ∃ q, R = rxCtx D q ∧ RxInner D q) →
      (devRun T R).poll (recorded ω) (n + 1) x = (.pending p', x') →
      p' = devEnabling D ∨ ∃ T q, p' = devRun T (rxCtx D q) ∧ RxRests D q x'.1 := by
    intro T R x hs hR h
    obtain ⟨T', R', x1, eT, eR, rfl⟩ := devRun_pending ω h
    have hs1 : SoundSignal x1.1 := by
      have := poll_inv (J := fun x => SoundSignal x.1) (ω := recorded ω)
        (fun e w hw => by rw [record_start_fst]; exact sound_start ω e _ hw)
        (fun e w hw => by rw [record_poll_fst]; exact sound_poll ω e _ hw) (n + 1) T x hs
      rw [eT] at this
      exact this
    right
    rcases hR with rfl | ⟨q, rfl, hq⟩
    · obtain ⟨sh1, l1⟩ := x1
      rw [receiveTask_eq, rxLoop_poll] at eR
      cases eR
      exact ⟨T', _, rfl, Or.inl ⟨_, rfl, by simp [Shared.wake]⟩⟩
    · have hF : False → Full x1.1 := False.elim
      have : ∃ q', R' = rxCtx D q' ∧ RxRests D q' x'.1 := by
        cases hq with
        | yield s => exact rx_rests ω (H := True) (yieldW_step ω D s _ hF (Nat.le_refl _) hs1) eR
        | lock s => exact rx_rests ω (H := True) (lockW_step ω D s _ hF (Nat.le_refl _) hs1) eR
        | listen s => exact rx_rests ω (H := True) (listenW_step ω D s _ hF (Nat.le_refl _) hs1) eR
        | handle h => exact rx_rests ω (h.step ω (n + 1) hF (heard x1.2) (D := D)) eR
      obtain ⟨q', rfl, h'⟩ := this
      exact ⟨T', q', rfl, h'⟩
  rcases hp with rfl | rfl | ⟨T, q, rfl, hT, hq⟩
  · rw [runDevice_eq] at h
    obtain ⟨sh, l⟩ := x
    rcases e : (deviceWorld ω).start (Tid.tx, Op.radioEnable) sh with ⟨_ | r, sh1⟩
    · rw [poll_bind_pending (poll_await_none (record_start_none ω e))] at h
      cases h
      exact Or.inl rfl
    · rw [poll_bind_ready (poll_await_some (record_start_some ω e))] at h
      refine key _ _ _ ?_ (Or.inl rfl) h
      have := sound_start ω (Tid.tx, Op.radioEnable) sh hs
      rw [e] at this
      exact this
  · rw [devEnabling] at h
    obtain ⟨sh, l⟩ := x
    rcases e : (deviceWorld ω).poll (Tid.tx, Op.radioEnable) sh with ⟨_ | r, sh1⟩
    · rw [poll_bind_pending (poll_wait_none (record_poll_none ω e))] at h
      cases h
      exact Or.inl rfl
    · rw [poll_bind_ready (poll_wait_some (record_poll_some ω e))] at h
      refine key _ _ _ ?_ (Or.inl rfl) h
      have := sound_poll ω (Tid.tx, Op.radioEnable) sh hs
      rw [e] at this
      exact this
  · exact key T _ _ hs (Or.inr ⟨q, rfl, hq⟩) h

/-- **C66**.  Whatever the surroundings `ω` do, after every poll (`past`, `last`) that leaves a
device pending with its radio enabled, one of these is the case: the receive task has just finished
a round and the device has been woken (so that it is polled again at once, and then goes on to
listen); the radio is receiving for the receive task; the receive task waits for the outside to
handle a frame it received; or it waits for the radio while the transmit task has it, in the middle
of a transmission, or awaiting an acknowledgement with a running timeout. -/
theorem C66_never_deaf (D : Device) (fuel : Nat) (past : List (W → W)) (last : W → W) (w : W)
    (p : Csma.Task Empty) (x : Shared W × List (Ev CallAns))
    (h : (runDevice D).run (deviceWorld ω).record (fuel + 1) ((past ++ [last]).map nextPoll)
      ({ base := w }, []) = (.pending p, x))
    (hen : (Tid.tx, Op.radioEnable) ∉ p.waits) :
    ((Tid.rx, Op.yieldNow) ∈ p.waits ∧ x.1.woken = true) ∨
    (Tid.rx, Op.radioReceive { channel := D.config.channel }) ∈ p.waits ∨
    busy p = true ∨
    ((Tid.rx, Op.lock) ∈ p.waits ∧ txAtWork D p.waits) := by
  have hr : Reached ω D (fuel + 1) p x := ⟨_, w, h⟩
  obtain ⟨p0, x0, hr0, e⟩ : ∃ p0 x0, Reached ω D (fuel + 1) p0 x0 ∧
      p0.poll (recorded ω) (fuel + 1) (nextPoll last x0) = (.pending p, x) := by
    rw [List.map_append, run_append] at h
    rcases e : (runDevice D).run (recorded ω) (fuel + 1) (past.map nextPoll) ({ base := w }, []) with
      ⟨r, x0⟩
    rw [e] at h
    cases r with
    | pending p0 =>
      refine ⟨p0, x0, ⟨past, w, e⟩, ?_⟩
      simp only [List.map_cons, List.map_nil, Prog.run] at h
      rcases e2 : p0.poll (recorded ω) (fuel + 1) (nextPoll last x0) with ⟨r, x1⟩
      rw [e2] at h
      cases r with
      | pending p1 => exact h
      | ready a => exact a.elim
      | panicked => cases h
      | diverged => cases h
    | ready a => exact a.elim
    | panicked => cases h
    | diverged => cases h
  obtain ⟨h1, h2⟩ := hr0.inv ω
  have h2' : SoundSignal (nextPoll last x0).1 := h2
  have h1' : p0 = runDevice D ∨ p0 = devEnabling D ∨ ∃ T q, p0 = devRun T (rxCtx D q) ∧ Good T ∧
      RxInner D q := by
    rcases h1 with h1 | h1 | ⟨T, q, h1, h3, h4, -⟩
    · exact Or.inl h1
    · exact Or.inr (Or.inl h1)
    · exact Or.inr (Or.inr ⟨T, q, h1, h3, h4⟩)
  rcases rests_step ω h1' h2' e with rfl | ⟨T, q, rfl, hq⟩
  · exact absurd (by simp [devEnabling, Prog.waits]) hen
  rcases hq with ⟨s, rfl, hw⟩ | ⟨s, rfl, hl⟩ | ⟨s, rfl⟩ | ⟨hh, hw⟩
  · exact Or.inl ⟨by simp [devRun, rxCtx, yieldW, Prog.waits], hw⟩
  · refine Or.inr (Or.inr (Or.inr ⟨by simp [devRun, rxCtx, lockW, Prog.waits], ?_⟩))
    have hf := hr.rx_free ω (lockW_exec D s) (fun _ => rfl)
    have hx := (hr.outcome ω (devRun_ne D _ _)).2
    rcases hr.txInv ω with ⟨h | h, -⟩ | ⟨T', R', u, hT', -, hu, -, hv⟩
    · exact absurd h (devRun_ne D _ _)
    · rw [h] at hen
      exact absurd (by simp [devEnabling, Prog.waits]) hen
    · have hloc := (hx u .free hu hf).2.1 hl
      have hTT : T' = T := by
        simp only [devRun] at hT'
        injection hT' with _ _ h1
        injection h1 with _ _ _ h1 h2
        exact h1.symm
      subst hTT
      have hsub : ∀ e ∈ T'.waits, e ∈ (devRun T' (rxCtx D (lockW D s))).waits := by
        intro e he
        simp [devRun, Prog.waits, he]
      cases u with
      | free => simp at hloc
      | held => exact hv.elim
      | transmitting =>
        obtain ⟨b, c, h⟩ := hv
        exact Or.inl ⟨b, c, hsub _ h⟩
      | receiving =>
        obtain ⟨⟨c, h⟩, h'⟩ := hv
        exact Or.inr ⟨⟨c, hsub _ h⟩, hsub _ h'⟩
  · exact Or.inr (Or.inl (by simp [devRun, rxCtx, listenW, Prog.waits]))
  · exact Or.inr (Or.inr (Or.inl (busy_of hh hw)))

/-- **C66**, no deadlock: after every poll that leaves a device pending, the device has been woken,
or it waits for the outside. -/
theorem C66_no_deadlock (D : Device) (fuel : Nat) (past : List (W → W)) (last : W → W) (w : W)
    (p : Csma.Task Empty) (x : Shared W × List (Ev CallAns))
    (h : (runDevice D).run (deviceWorld ω).record (fuel + 1) ((past ++ [last]).map nextPoll)
      ({ base := w }, []) = (.pending p, x)) :
    x.1.woken = true ∨ ∃ e ∈ p.waits, outside e = true := by
  by_cases hen : (Tid.tx, Op.radioEnable) ∈ p.waits
  · exact Or.inr ⟨_, hen, rfl⟩
  rcases C66_never_deaf ω D fuel past last w p x h hen with ⟨-, h⟩ | h | h | ⟨-, ⟨b, c, h⟩ | ⟨⟨c, h⟩, -⟩⟩
  · exact Or.inl h
  · exact Or.inr ⟨_, h, rfl⟩
  · simp only [busy, List.any_eq_true] at h
    obtain ⟨⟨i, op⟩, h1, h2⟩ := h
    refine Or.inr ⟨_, h1, ?_⟩
    cases i <;> cases op <;> simp_all [handling, outside]
  · exact Or.inr ⟨_, h, rfl⟩
  · exact Or.inr ⟨_, h, rfl⟩

/-- The device of the examples after `past`, in surroundings `ω`. -/
def afterPolls {W : Type} (ω : Prog.World CallAns W) (past : List (W → W)) (w : W) :
    Prog.Res CallAns Empty × (Shared W × List (Ev CallAns)) :=
  (runDevice exampleDevice).run (deviceWorld ω).record 3 (past.map nextPoll) ({ base := w }, [])

/-- The surroundings `scripted`, with an upper layer that takes its time. -/
def scriptedSlow : Prog.World CallAns Script where
  start e w := match e with
    | (_, .driverReceived _) => (none, w)
    | e => scripted.start e w
  poll := scripted.poll

set_option maxRecDepth 40000 in
/-- A device after its first poll; listening; handing a frame to the upper layer. -/
example :
    (waitsOf (afterPolls (noisy true) [id] false).1 =
      [(Tid.tx, .driverTransmit), (Tid.rx, .yieldNow)] ∧
      (afterPolls (noisy true) [id] false).2.1.woken = true) ∧
    waitsOf (afterPolls (noisy true) [id, fun _ => true] false).1 =
      [(Tid.tx, .yieldNow), (Tid.rx, .radioReceive (rxCfg exampleDevice)), (Tid.rx, .recvSignal)] ∧
    ∃ b, waitsOf (afterPolls scriptedSlow [id, id] ⟨none, some askingFrame, none, true⟩).1 =
      [(Tid.tx, .driverTransmit), (Tid.rx, .driverReceived b)] :=
  ⟨⟨rfl, rfl⟩, rfl, _, rfl⟩

set_option maxRecDepth 40000 in
/-- A device that transmits, and one that awaits an acknowledgement. -/
example :
    (∃ b c, waitsOf (afterPolls (noisy true) [id, id] true).1 =
      [(Tid.tx, .radioTransmit b c), (Tid.rx, .lock)]) ∧
    waitsOf (afterPolls scripted [id, id] ⟨some examplePackage, none, none, true⟩).1 =
      [(Tid.tx, .radioReceive (rxCfg exampleDevice)),
        (Tid.tx, .delay (ackTimeout exampleDevice.consts)), (Tid.rx, .lock)] :=
  ⟨⟨_, _, rfl⟩, rfl⟩

end Dot15d4.Props
