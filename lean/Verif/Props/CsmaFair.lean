import Verif.Lemmas.Waits
import Verif.Props.CsmaLock

/-!
# C49: the transmit task gets the radio
-/

namespace Dot15d4.Props
open Dot15d4 Out Spec Csma
open Dot15d4.Sync (Either)

variable {W : Type} (ω : Prog.World CallAns W)

/-- The surroundings of a device, recorded. -/
abbrev recorded : Prog.World CallAns (Shared W × List (Ev CallAns)) := (deviceWorld ω).record

theorem record_start_fst (e : Csma.Call) (x : Shared W × List (Ev CallAns)) :
    ((recorded ω).start e x).2.1 = ((deviceWorld ω).start e x.1).2 := by
  obtain ⟨s, l⟩ := x
  simp only [Prog.World.record]
  rcases (deviceWorld ω).start e s with ⟨_ | _, _⟩ <;> rfl

theorem record_poll_fst (e : Csma.Call) (x : Shared W × List (Ev CallAns)) :
    ((recorded ω).poll e x).2.1 = ((deviceWorld ω).poll e x.1).2 := by
  obtain ⟨s, l⟩ := x
  simp only [Prog.World.record]
  rcases (deviceWorld ω).poll e s with ⟨_ | _, _⟩ <;> rfl

section
variable {s s' : Shared W} {l : List (Ev CallAns)}

theorem record_start_some {e : Csma.Call} {r : CallAns e}
    (h : (deviceWorld ω).start e s = (some r, s')) :
    (recorded ω).start e (s, l) = (some r, (s', l ++ [.start e, .ret e r])) := by
  simp only [Prog.World.record, h]

theorem record_start_none {e : Csma.Call} (h : (deviceWorld ω).start e s = (none, s')) :
    (recorded ω).start e (s, l) = (none, (s', l ++ [.start e])) := by
  simp only [Prog.World.record, h]

theorem record_poll_some {e : Csma.Call} {r : CallAns e}
    (h : (deviceWorld ω).poll e s = (some r, s')) :
    (recorded ω).poll e (s, l) = (some r, (s', l ++ [.ret e r])) := by
  simp only [Prog.World.record, h]

theorem record_poll_none {e : Csma.Call} (h : (deviceWorld ω).poll e s = (none, s')) :
    (recorded ω).poll e (s, l) = (none, (s', l)) := by
  simp only [Prog.World.record, h]

theorem tryLock_free {i : Tid} (h : s.radio.locked = false) :
    (deviceWorld ω).start (i, .tryLock) s =
      (some true, { s with radio := { s.radio with locked := true } }) := by
  simp only [deviceWorld, Sync.Mutex.tryLock, h]
  rfl

theorem tryLock_locked {i : Tid} (h : s.radio.locked = true) :
    (deviceWorld ω).start (i, .tryLock) s = (some false, s) := by
  simp only [deviceWorld, Sync.Mutex.tryLock, h]
  rfl

end

/-! ## The signal channel -/

/-- There is a signal in the channel. -/
def Full (s : Shared W) : Prop := s.signal.isReady = true ∧ s.signal.message.isSome = true

/-- The channel is sound: it says there is a signal only if there is one. -/
def SoundSignal (s : Shared W) : Prop := s.signal.isReady = true → s.signal.message.isSome = true

/-- The calls that do not touch the channel. -/
def NoSignal (e : Csma.Call) : Prop := e.2 ≠ .sendSignal ∧ e.2 ≠ .recvSignal

theorem noSignal_start (e : Csma.Call) (s : Shared W) (h : NoSignal e) :
    ((deviceWorld ω).start e s).2.signal = s.signal := by
  obtain ⟨i, op⟩ := e
  cases op with
  | sendSignal => exact absurd rfl h.1
  | recvSignal => exact absurd rfl h.2
  | lock =>
    simp only [deviceWorld, Shared.lockRadio]
    rcases s.radio.lockPoll (fun _ _ => true) () with ⟨_ | _, _, _⟩ <;> rfl
  | rngLock =>
    simp only [deviceWorld, Shared.lockRng]
    rcases s.rng.lockPoll (fun _ _ => true) () with ⟨_ | _, _, _⟩ <;> rfl
  | _ => rfl

theorem noSignal_poll (e : Csma.Call) (s : Shared W) (h : NoSignal e) :
    ((deviceWorld ω).poll e s).2.signal = s.signal := by
  obtain ⟨i, op⟩ := e
  cases op with
  | sendSignal => exact absurd rfl h.1
  | recvSignal => exact absurd rfl h.2
  | lock =>
    simp only [deviceWorld, Shared.lockRadio]
    rcases s.radio.lockPoll (fun _ _ => true) () with ⟨_ | _, _, _⟩ <;> rfl
  | rngLock =>
    simp only [deviceWorld, Shared.lockRng]
    rcases s.rng.lockPoll (fun _ _ => true) () with ⟨_ | _, _, _⟩ <;> rfl
  | _ => rfl

theorem sendSignal_full {s : Shared W} (h : s.signal.isReady = true) :
    ∃ s', s.sendSignal = (none, s') ∧ s'.signal.isReady = true ∧
      s'.signal.message = s.signal.message ∧ s'.radio = s.radio := by
  simp only [Shared.sendSignal, Sync.Channel.sendAsyncPoll, Sync.Channel.hasItem, h, if_true]
  cases s.signal.wakerSend with
  | none => exact ⟨_, rfl, rfl, rfl, rfl⟩
  | some w => exact ⟨_, rfl, rfl, rfl, rfl⟩

theorem sendSignal_empty {s : Shared W} (h : s.signal.isReady = false) :
    ∃ s', s.sendSignal = (some (), s') ∧ Full s' ∧ s'.radio = s.radio := by
  refine ⟨(s.sendSignal).2, ?_, ?_, ?_⟩ <;>
    simp [Shared.sendSignal, Sync.Channel.sendAsyncPoll, Sync.Channel.hasItem, h,
      Sync.Channel.send, Shared.wake, Full, pure]

theorem recvSignal_full {s : Shared W} (h : Full s) :
    ∃ s', s.recvSignal = (some (), s') ∧ s'.signal.isReady = false ∧ s'.radio = s.radio := by
  obtain ⟨h1, h2⟩ := h
  obtain ⟨m, hm⟩ := Option.isSome_iff_exists.1 h2
  refine ⟨(s.recvSignal).2, ?_, ?_, ?_⟩ <;>
    simp [Shared.recvSignal, Sync.Channel.receivePoll, h1, hm, Out.ofSome, Shared.wake, pure]

theorem recvSignal_empty {s : Shared W} (h : s.signal.isReady = false) :
    ∃ s', s.recvSignal = (none, s') ∧ s'.signal.isReady = false := by
  refine ⟨(s.recvSignal).2, ?_, ?_⟩ <;>
    simp [Shared.recvSignal, Sync.Channel.receivePoll, h, Shared.wake]

theorem sendSignal_sound {s : Shared W} (h : SoundSignal s) : SoundSignal s.sendSignal.2 := by
  cases hr : s.signal.isReady with
  | true =>
    obtain ⟨s', e, h1, h2, -⟩ := sendSignal_full hr
    rw [e]
    intro _
    rw [h2]
    exact h hr
  | false =>
    obtain ⟨s', e, h1, -⟩ := sendSignal_empty hr
    rw [e]
    exact fun _ => h1.2

theorem recvSignal_sound {s : Shared W} (h : SoundSignal s) : SoundSignal s.recvSignal.2 := by
  cases hr : s.signal.isReady with
  | true =>
    obtain ⟨s', e, h1, -⟩ := recvSignal_full ⟨hr, h hr⟩
    rw [e]
    intro h2
    rw [h1] at h2
    cases h2
  | false =>
    obtain ⟨s', e, h1⟩ := recvSignal_empty hr
    rw [e]
    intro h2
    rw [h1] at h2
    cases h2

theorem sound_start (e : Csma.Call) (s : Shared W) (h : SoundSignal s) :
    SoundSignal ((deviceWorld ω).start e s).2 := by
  by_cases h1 : e.2 = .sendSignal
  · obtain ⟨i, op⟩ := e
    cases h1
    exact sendSignal_sound h
  · by_cases h2 : e.2 = .recvSignal
    · obtain ⟨i, op⟩ := e
      cases h2
      exact recvSignal_sound h
    · rw [SoundSignal, noSignal_start ω e s ⟨h1, h2⟩]
      exact h

theorem sound_poll (e : Csma.Call) (s : Shared W) (h : SoundSignal s) :
    SoundSignal ((deviceWorld ω).poll e s).2 := by
  by_cases h1 : e.2 = .sendSignal
  · obtain ⟨i, op⟩ := e
    cases h1
    exact sendSignal_sound h
  · by_cases h2 : e.2 = .recvSignal
    · obtain ⟨i, op⟩ := e
      cases h2
      exact recvSignal_sound h
    · rw [SoundSignal, noSignal_poll ω e s ⟨h1, h2⟩]
      exact h

/-- Polls that do not touch the channel leave a signal there. -/
theorem full_poll {α : Type} {p : Csma.Task α} (hp : p.Only NoSignal) (fuel : Nat)
    {x : Shared W × List (Ev CallAns)} (h : Full x.1) :
    Full (p.poll (recorded ω) fuel x).2.1 := by
  refine poll_inv_only (J := fun x => Full x.1) (S := NoSignal) ?_ ?_ fuel p hp x h
  · intro e w he hw
    rw [record_start_fst, Full, noSignal_start ω e _ he]
    exact hw
  · intro e w he hw
    rw [record_poll_fst, Full, noSignal_poll ω e _ he]
    exact hw

/-! ## The transmit task -/

/-- The loop of `acquireLock`. -/
def acqBody (_ : Unit) : Csma.Task (Sum Unit Unit) := do
  let locked : Bool ← tx .tryLock
  if locked then pure (.inr ())
  else do
    tx .sendSignal
    pure (.inl ())

theorem acquireLock_eq : acquireLock false = .loop acqBody () := rfl

/-- `acquireLock`, waiting. -/
def acqWait : Csma.Task Unit :=
  .bind (.bind (.wait (Tid.tx, Op.sendSignal) id) (fun _ => .pure (.inl ()))) (Prog.again acqBody)

/-- A program whose next step is that of `acqWait`. -/
inductive AcqCtx : {α : Type} → Csma.Task α → Prop where
  | acq : AcqCtx acqWait
  | bind {α β : Type} {p : Csma.Task β} {k : β → Csma.Task α} : AcqCtx p → AcqCtx (.bind p k)

/-- Not the call by which the transmit task asks for the radio. -/
def NotSend (e : Csma.Call) : Prop := e ≠ (.tx, .sendSignal)

/-- Programs that ask for the radio only by `acquireLock`. -/
inductive Good : {α : Type} → Csma.Task α → Prop where
  | acq : Good (acquireLock false)
  | acqWait : Good acqWait
  | only {α : Type} {p : Csma.Task α} : p.Only NotSend → Good p
  | bind {α β : Type} {p : Csma.Task β} {k : β → Csma.Task α} :
      Good p → (∀ b, Good (k b)) → Good (.bind p k)
  | loop {σ α : Type} {body : σ → Csma.Task (Sum σ α)} {s : σ} :
      (∀ s, Good (body s)) → Good (.loop body s)

theorem acquireLock_good (held : Bool) : Good (acquireLock held) := by
  cases held with
  | true => exact .only trivial
  | false => exact .acq

theorem notSend_of {i : Tid} {o : Op} (h : o ≠ .sendSignal) : NotSend (i, o) :=
  fun he => h (congrArg Prod.snd he)

theorem good_tx {o : Op} (h : o ≠ .sendSignal) : Good (tx o) := .only (notSend_of h)

theorem lift_good {α : Type} (x : Out α) : Good (Prog.lift x : Csma.Task α) := .only (lift_only _ _)

theorem performBackoff_notSend (c : Consts) (bk : Backoff) :
    (performBackoff c bk).Only NotSend := by
  cases bk with
  | none => trivial
  | exponential be =>
    exact ⟨lift_only _ _, fun _ => ⟨notSend_of (by simp), fun _ => ⟨notSend_of (by simp), fun _ =>
      ⟨notSend_of (by simp), fun _ => ⟨notSend_of (by simp), fun _ => trivial⟩⟩⟩⟩⟩

theorem transmitCca_good (c : Consts) (ch : PhyChannel) (b : Arr 128) (held : Bool)
    (bk : Backoff) : Good (transmitCca c ch b held bk) := by
  refine .loop fun x => ?_
  rw [ccaRound]
  split
  · refine .bind (acquireLock_good _) fun _ => .bind (good_tx (by simp)) ?_
    rintro (r : Bool)
    cases r with
    | true => exact .only trivial
    | false =>
      refine .bind (good_tx (by simp)) fun _ => ?_
      show Good (ite _ _ _)
      split
      · exact .only trivial
      · refine .bind (.only ⟨performBackoff_notSend c _, ?_⟩) fun _ => .only trivial
        exact notSend_of (by simp)
  · exact .only trivial

theorem waitForValidAck_notSend (F : RadioFormat) (ch : PhyChannel) (seq : Byte) :
    (waitForValidAck F ch seq).Only NotSend := by
  intro _
  refine ⟨notSend_of (by simp), ?_⟩
  rintro ⟨r, b⟩
  cases r with
  | false => trivial
  | true => exact ⟨lift_only _ _, fun v => trivial⟩

theorem ackRound_good (D : Device) (b : Arr 128) (seq : Option (Byte × Byte)) (i : Nat) :
    Good (ackRound D b seq i) := by
  rw [ackRound]
  split
  · refine .bind (transmitCca_good _ _ _ false _) ?_
    rintro ⟨r, held⟩
    cases r with
    | false => exact .bind (good_tx (by simp)) fun _ => .only trivial
    | true =>
      cases seq with
      | none =>
        refine .bind ?_ fun _ => .only trivial
        cases held with
        | true => exact good_tx (by simp)
        | false => exact .only trivial
      | some sq =>
        refine .bind (acquireLock_good _) fun _ => .bind (.only ⟨waitForValidAck_notSend _ _ _,
          notSend_of (by simp)⟩) fun a => .bind (good_tx (by simp)) fun _ => ?_
        cases a with
        | true => exact .only trivial
        | false =>
          refine .bind (good_tx (by simp)) fun _ => ?_
          show Good (ite _ _ _)
          split
          · exact .bind (good_tx (by simp)) fun _ => .only trivial
          · exact .bind (good_tx (by simp)) fun _ => .only trivial
  · exact .only trivial

theorem reportTaskError_good {α : Type} (r : Except TaskError α) : Good (reportTaskError r) := by
  cases r with
  | ok a => exact .only trivial
  | error e => cases e <;> exact good_tx (by simp)

theorem transmitTask_good (D : Device) : Good (transmitTask D) := by
  refine .loop fun _ => .bind ?_ fun _ => .only trivial
  exact .bind (good_tx (by simp)) fun _ => .bind (good_tx (by simp)) fun _ =>
    .bind (lift_good _) fun _ => .bind (reportTaskError_good _) fun _ =>
    .bind (lift_good _) fun _ => .bind (reportTaskError_good _) fun _ =>
    .bind (lift_good _) fun _ => .loop fun i => ackRound_good D _ _ i

theorem Good.ctx {α : Type} {p : Csma.Task α} (h : Good p) : WantsRadio p → AcqCtx p := by
  induction h with
  | acq => intro h; cases h
  | acqWait => intro _; exact .acq
  | only h => exact fun hw => absurd rfl (h.mem_waits _ hw)
  | bind _ _ ih _ => exact fun hw => .bind (ih hw)
  | loop => intro h; cases h

/-- Where `acqWait` waits. -/
abbrev acqSend : Csma.Task (Sum Unit Unit) :=
  .bind (.wait (Tid.tx, Op.sendSignal) id) (fun _ => .pure (.inl ()))

/-- The rest of the loop when the radio is taken. -/
def acqRest : Csma.Task (Sum Unit Unit) :=
  .bind (Prog.await (Ans := CallAns) (Tid.tx, Op.sendSignal)) fun _ => .pure (.inl ())

section
variable {s : Shared W} (n : Nat) (l : List (Ev CallAns))

theorem acqBody_free (hk : s.radio.locked = false) :
    (acqBody ()).poll (recorded ω) n (s, l) =
      (.ready (.inr ()), ({ s with radio := { s.radio with locked := true } },
        l ++ [.start (Tid.tx, .tryLock), .ret (Tid.tx, .tryLock) true])) :=
  poll_bind_ready (p := Prog.await (Ans := CallAns) (Tid.tx, Op.tryLock)) (b := true)
    (poll_await_some (record_start_some ω (tryLock_free ω hk)))

theorem acqBody_locked (hk : s.radio.locked = true) :
    (acqBody ()).poll (recorded ω) n (s, l) =
      acqRest.poll (recorded ω) n
        (s, l ++ [.start (Tid.tx, .tryLock), .ret (Tid.tx, .tryLock) false]) :=
  poll_bind_ready (p := Prog.await (Ans := CallAns) (Tid.tx, Op.tryLock)) (b := false)
    (poll_await_some (record_start_some ω (tryLock_locked ω hk)))

theorem acqBody_pending {x : Shared W × List (Ev CallAns)} {q : Csma.Task (Sum Unit Unit)}
    {x' : Shared W × List (Ev CallAns)}
    (h : (acqBody ()).poll (recorded ω) n x = (.pending q, x')) :
    q = acqSend ∧ x'.1.signal.isReady = true := by
  obtain ⟨s, l⟩ := x
  cases hk : s.radio.locked with
  | false => rw [acqBody_free ω n l hk] at h; cases h
  | true =>
    rw [acqBody_locked ω n l hk] at h
    cases hr : s.signal.isReady with
    | true =>
      obtain ⟨s2, e, h1, -⟩ := sendSignal_full hr
      rw [acqRest, poll_bind_pending (poll_await_none (record_start_none ω
        (e := (Tid.tx, Op.sendSignal)) e))] at h
      cases h
      exact ⟨rfl, h1⟩
    | false =>
      obtain ⟨s2, e, h1, -⟩ := sendSignal_empty hr
      have e1 : ∀ l, acqRest.poll (recorded ω) n (s, l) = (.ready (.inl ()),
          (s2, l ++ [.start (Tid.tx, .sendSignal), .ret (Tid.tx, .sendSignal) ()])) :=
        fun l => poll_bind_ready (poll_await_some (record_start_some ω
          (e := (Tid.tx, Op.sendSignal)) e))
      rw [e1] at h
      cases h

end

/-- What a poll of `acquireLock` leaves if it has to wait. -/
theorem acquireLock_pending (n : Nat) {x : Shared W × List (Ev CallAns)}
    {q : Csma.Task Unit} {x' : Shared W × List (Ev CallAns)}
    (h : (acquireLock false).poll (recorded ω) n x = (.pending q, x')) :
    q = acqWait ∧ x'.1.signal.isReady = true := by
  rw [acquireLock_eq, Prog.poll] at h
  refine pollLoop_pending (Pd := fun q (x' : Shared W × List (Ev CallAns)) =>
    q = acqWait ∧ x'.1.signal.isReady = true) ?_ n () x q x' h
  rintro ⟨⟩ x q x' h
  obtain ⟨rfl, h2⟩ := acqBody_pending ω n h
  exact ⟨rfl, h2⟩

/-- What a poll of a good program leaves is good; if it wants the radio, there is a signal. -/
theorem good_polled {α : Type} {p : Csma.Task α} (hg : Good p) (n : Nat) :
    ∀ (x : Shared W × List (Ev CallAns)) (q : Csma.Task α) (x' : Shared W × List (Ev CallAns)),
      p.poll (recorded ω) n x = (.pending q, x') →
      Good q ∧ (WantsRadio q → x'.1.signal.isReady = true) := by
  induction hg with
  | acq =>
    intro x q x' h
    obtain ⟨rfl, h2⟩ := acquireLock_pending ω n h
    exact ⟨.acqWait, fun _ => h2⟩
  | acqWait =>
    rintro ⟨s, l⟩ q x' h
    cases hr : s.signal.isReady with
    | true =>
      obtain ⟨s2, e, h1, -⟩ := sendSignal_full hr
      have e1 : acqWait.poll (recorded ω) n (s, l) = (.pending acqWait, (s2, l)) :=
        poll_bind_pending (poll_bind_pending (poll_wait_none (record_poll_none ω
          (e := (Tid.tx, Op.sendSignal)) e)))
      rw [e1] at h
      cases h
      exact ⟨.acqWait, fun _ => h1⟩
    | false =>
      obtain ⟨s2, e, h1, -⟩ := sendSignal_empty hr
      have e1 : acqWait.poll (recorded ω) n (s, l) = (acquireLock false).poll (recorded ω) n
          (s2, l ++ [.ret (Tid.tx, .sendSignal) ()]) :=
        poll_bind_ready (b := Sum.inl ()) (poll_bind_ready (poll_wait_some (record_poll_some ω
          (e := (Tid.tx, Op.sendSignal)) e)))
      rw [e1] at h
      obtain ⟨rfl, h2⟩ := acquireLock_pending ω n h
      exact ⟨.acqWait, fun _ => h2⟩
  | only h =>
    intro x q x' hq
    have := (poll_pending _ n _ x q x' hq).2 NotSend h
    exact ⟨.only this, fun hw => absurd rfl (this.mem_waits _ hw)⟩
  | @bind _ _ p k hp hk ihp ihk =>
    intro x q x' h
    rcases e : p.poll (recorded ω) n x with ⟨r, x1⟩
    cases r with
    | ready b =>
      rw [poll_bind_ready e] at h
      exact ihk b _ _ _ h
    | pending p' =>
      rw [poll_bind_pending e] at h
      cases h
      obtain ⟨h1, h2⟩ := ihp _ _ _ e
      exact ⟨.bind h1 hk, h2⟩
    | panicked => rw [poll_bind_panicked e] at h; cases h
    | diverged => rw [poll_bind_diverged e] at h; cases h
  | @loop _ _ body s hb ih =>
    intro x q x' h
    rw [Prog.poll] at h
    refine pollLoop_pending (Pd := fun q (x' : Shared W × List (Ev CallAns)) =>
      Good q ∧ (WantsRadio q → x'.1.signal.isReady = true)) ?_ n s x q x' h
    intro s1 x1 q1 x2 h1
    obtain ⟨a1, a2⟩ := ih s1 x1 q1 x2 h1
    refine ⟨.bind a1 ?_, a2⟩
    rintro (s2 | a)
    · exact .loop hb
    · exact .only trivial

/-- While there is a signal, the transmit task waits. -/
theorem AcqCtx.wait {α : Type} {p : Csma.Task α} (h : AcqCtx p) (n : Nat) {s : Shared W}
    (l : List (Ev CallAns)) (hf : Full s) :
    ∃ s', p.poll (recorded ω) n (s, l) = (.pending p, (s', l)) ∧ Full s' ∧ s'.radio = s.radio := by
  induction h with
  | acq =>
    obtain ⟨s2, e, h1, h2, h3⟩ := sendSignal_full hf.1
    exact ⟨s2, poll_bind_pending (poll_bind_pending (poll_wait_none (record_poll_none ω
      (e := (Tid.tx, Op.sendSignal)) e))), ⟨h1, by rw [h2]; exact hf.2⟩, h3⟩
  | bind _ ih =>
    obtain ⟨s', e, h1, h2⟩ := ih
    exact ⟨s', poll_bind_pending e, h1, h2⟩

/-- When there is none, and the radio is free, it takes it. -/
theorem AcqCtx.take {α : Type} {p : Csma.Task α} (h : AcqCtx p) (n : Nat) {s : Shared W}
    (l : List (Ev CallAns)) (hr : s.signal.isReady = false) (hk : s.radio.locked = false) :
    l ++ [.ret (Tid.tx, .sendSignal) (), .start (Tid.tx, .tryLock), .ret (Tid.tx, .tryLock) true]
      <+: (p.poll (recorded ω) (n + 1) (s, l)).2.2 := by
  induction h with
  | acq =>
    obtain ⟨s2, e, h1, h2⟩ := sendSignal_empty hr
    have e1 : acqWait.poll (recorded ω) (n + 1) (s, l) =
        (acquireLock false).poll (recorded ω) (n + 1) (s2, l ++ [.ret (Tid.tx, .sendSignal) ()]) :=
      poll_bind_ready (b := Sum.inl ()) (poll_bind_ready (poll_wait_some (record_poll_some ω
        (e := (Tid.tx, Op.sendSignal)) e)))
    rw [e1, acquireLock_eq, Prog.poll, Prog.pollLoop, acqBody_free ω (n + 1) _ (by rw [h2]; exact hk)]
    simp
  | @bind _ _ p k _ ih =>
    rcases e : p.poll (recorded ω) (n + 1) (s, l) with ⟨r, x1⟩
    rw [e] at ih
    cases r with
    | ready b => rw [poll_bind_ready e]; exact ih.trans (poll_prefix _ _ _ _)
    | pending p' => rw [poll_bind_pending e]; exact ih
    | panicked => rw [poll_bind_panicked e]; exact ih
    | diverged => rw [poll_bind_diverged e]; exact ih

/-! ## The receive task -/

/-- What `receiveRound` does with the outcome of listening. -/
def afterListen (D : Device) (s : RxState) : Bool × Option (Arr 128) → Csma.Task RxState
  | (true, some buffer) => handleReceived D s buffer
  | _ => giveUp s

/-- `receiveRound` once the radio is held. -/
def afterLock (D : Device) (s : RxState) : Csma.Task RxState :=
  .bind (listen D) (afterListen D s)

/-- `receiveRound` after its yield. -/
def afterYield (D : Device) (s : RxState) : Csma.Task RxState :=
  .bind (Prog.when (!s.held) (rx .lock)) (fun _ => afterLock D s)

/-- The loop of the receive task. -/
def rxBody (D : Device) (s : RxState) : Csma.Task (Sum RxState Empty) :=
  .bind (.bind (rx .yieldNow) fun (_ : Unit) => afterYield D s) fun s => .pure (.inl s)

theorem receiveTask_eq (D : Device) : receiveTask D =
    .loop (rxBody D) { held := false, txAck := ⟨List.replicate 128 0, by simp⟩ } := rfl

/-- The receive task, with `p` left of the round. -/
def rxCtx (D : Device) (p : Csma.Task RxState) : Csma.Task Empty :=
  .bind (.bind p fun s => .pure (.inl s)) (Prog.again (rxBody D))

/-- Waiting in `yield_now`. -/
def yieldW (D : Device) (s : RxState) : Csma.Task RxState :=
  .bind (.wait (Tid.rx, Op.yieldNow) id) (fun _ => afterYield D s)

/-- Waiting for the radio. -/
def lockW (D : Device) (s : RxState) : Csma.Task RxState :=
  .bind (.wait (Tid.rx, Op.lock) id) (fun _ => afterLock D s)

/-- What `listen` makes of its two branches. -/
def listenK (c : RxConfig) :
    Either (CallAns (Tid.rx, Op.radioReceive c)) (CallAns (Tid.rx, Op.recvSignal)) →
      Bool × Option (Arr 128)
  | .first (r : Bool × Arr 128) => (r.1, some r.2)
  | .second (_ : Unit) => (false, none)

/-- The configuration for receiving. -/
abbrev rxCfg (D : Device) : RxConfig := { channel := D.config.channel }

/-- Listening. -/
def listenW (D : Device) (s : RxState) : Csma.Task RxState :=
  .bind (.select (.wait (Tid.rx, Op.radioReceive (rxCfg D)) id)
    (.wait (Tid.rx, Op.recvSignal) id) (listenK (rxCfg D))) (afterListen D s)

/-- Handling a frame. -/
def Handle {α : Type} (p : Csma.Task α) : Prop := p.Only (fun e => handling e = true) ∧ p.Loopless

/-- Where the receive task can be between polls. -/
inductive RxInner (D : Device) : Csma.Task RxState → Prop where
  | yield (s : RxState) : RxInner D (yieldW D s)
  | lock (s : RxState) : RxInner D (lockW D s)
  | listen (s : RxState) : RxInner D (listenW D s)
  | handle {p : Csma.Task RxState} : Handle p → RxInner D p

/-- How often the radio received something. -/
def heard (l : List (Ev CallAns)) : Nat := l.countP heardSomething

theorem heard_mono {l l' : List (Ev CallAns)} (h : l <+: l') : heard l ≤ heard l' := by
  obtain ⟨t, rfl⟩ := h
  rw [heard, heard, List.countP_append]
  omega

/-- What a poll of the rest of a round leads to.  `F`: there was a signal before it; `H`: it was
handling a frame; `h0`: how often the radio had received something. -/
def RxStep (D : Device) (F H : Prop) (h0 : Nat)
    (res : Prog.Res CallAns RxState × (Shared W × List (Ev CallAns))) : Prop :=
  match res.1 with
  | .pending q =>
    (∃ s, q = lockW D s ∧ res.2.1.radio.locked = true ∧ (F → Full res.2.1)) ∨
    (Handle q ∧ (F → Full res.2.1) ∧ (H ∨ h0 < heard res.2.2)) ∨
    (∃ s, q = listenW D s ∧ ¬ F)
  | .ready s => F → (s.held = false ∧ res.2.1.signal.isReady = false) ∨
      (Full res.2.1 ∧ (H ∨ h0 < heard res.2.2))
  | .panicked => True
  | .diverged => False

theorem handling_noSignal {e : Csma.Call} (h : handling e = true) : NoSignal e := by
  obtain ⟨i, op⟩ := e
  cases i <;> cases op <;> simp_all [handling, NoSignal]

theorem Handle.step {D : Device} {q : Csma.Task RxState} (hq : Handle q) (n : Nat) {F : Prop}
    {x : Shared W × List (Ev CallAns)} (hF : F → Full x.1) (h0 : Nat) :
    RxStep D F True h0 (q.poll (recorded ω) n x) := by
  have h1 := hq.2.poll (recorded ω) n q x
  have h2 : F → Full (q.poll (recorded ω) n x).2.1 := fun h =>
    full_poll ω (Only.mono (fun _ => handling_noSignal) hq.1) n (hF h)
  have h3 := poll_pending (recorded ω) n q x
  rcases e : q.poll (recorded ω) n x with ⟨r, x'⟩
  rw [e] at h1 h2
  cases r with
  | pending q' => exact Or.inr (Or.inl ⟨⟨(h3 _ _ e).2 _ hq.1, h1.2 _ _ rfl⟩, h2, Or.inl trivial⟩)
  | ready s => exact fun h => Or.inr ⟨h2 h, Or.inl trivial⟩
  | panicked => trivial
  | diverged => exact h1.1 rfl

theorem RxStep.weaken {D : Device} {F H : Prop} {h0 : Nat}
    {res : Prog.Res CallAns RxState × (Shared W × List (Ev CallAns))}
    (h : RxStep D F True h0 res) (hh : h0 < heard res.2.2) : RxStep D F H h0 res := by
  obtain ⟨r, x⟩ := res
  cases r with
  | pending q =>
    rcases h with h | h | h
    · exact Or.inl h
    · exact Or.inr (Or.inl ⟨h.1, h.2.1, Or.inr hh⟩)
    · exact Or.inr (Or.inr h)
  | ready s => exact fun hf => (h hf).imp id fun h => ⟨h.1, Or.inr hh⟩
  | panicked => trivial
  | diverged => exact h

theorem lift_loopless {α : Type} (x : Out α) : (Prog.lift x : Csma.Task α).Loopless := by
  cases x <;> trivial

theorem acknowledge_handle (D : Device) (seq : Option Byte) (b : Arr 128) :
    Handle (acknowledge D true seq b) := by
  cases seq with
  | none => exact ⟨trivial, trivial⟩
  | some sq =>
    exact ⟨⟨lift_only _ _, fun _ => ⟨lift_only _ _, fun _ => ⟨lift_only _ _, fun _ =>
      ⟨rfl, fun _ => ⟨rfl, fun _ => trivial⟩⟩⟩⟩⟩, ⟨lift_loopless _, fun _ => ⟨lift_loopless _,
      fun _ => ⟨lift_loopless _, fun _ => ⟨trivial, fun _ => ⟨trivial, fun _ => trivial⟩⟩⟩⟩⟩⟩

theorem unlock_start (i : Tid) (s : Shared W) : ∃ s', (deviceWorld ω).start (i, .unlock) s =
    (some (), s') ∧ s'.signal = s.signal ∧ s'.radio.locked = false :=
  ⟨_, rfl, rfl, rfl⟩

theorem handleReceived_step (D : Device) (s : RxState) (b : Arr 128) (n : Nat) {F H : Prop}
    {x : Shared W × List (Ev CallAns)} (hF : F → Full x.1) {h0 : Nat} (hh : h0 < heard x.2) :
    RxStep D F H h0 ((handleReceived D s b).poll (recorded ω) n x) := by
  refine RxStep.weaken ?_ (Nat.lt_of_lt_of_le hh (heard_mono (poll_prefix _ n _ x)))
  rw [handleReceived]
  rcases examineReceived D b.1 with v | _ | _
  · have e1 : ∀ k : Option (Bool × Option Byte) → Csma.Task RxState,
        (Prog.bind (Prog.lift (.ok v)) k).poll (recorded ω) n x = (k v).poll (recorded ω) n x :=
      fun k => poll_bind_ready rfl
    erw [e1]
    cases v with
    | none => exact fun h => Or.inr ⟨hF h, Or.inl trivial⟩
    | some v =>
      obtain ⟨a, seq⟩ := v
      cases a with
      | true =>
        have hh : Handle (.join (acknowledge D true seq s.txAck)
            (rx (.driverReceived { buffer := b, dirty := true })) (fun s (_ : Unit) => s)) :=
          ⟨⟨(acknowledge_handle D seq _).1, rfl⟩, ⟨(acknowledge_handle D seq _).2, trivial⟩⟩
        exact hh.step ω n hF h0
      | false =>
        obtain ⟨sh, l⟩ := x
        obtain ⟨s1, e, h1, -⟩ := unlock_start ω .rx sh
        have e2 : (acknowledge D false seq s.txAck).poll (recorded ω) n (sh, l) =
            (.ready { held := false, txAck := s.txAck },
              (s1, l ++ [.start (Tid.rx, .unlock), .ret (Tid.rx, .unlock) ()])) :=
          poll_bind_ready (poll_await_some (record_start_some ω e))
        have e3 : ∀ q : Csma.Task Unit, (Prog.join (acknowledge D false seq s.txAck) q
              (fun s (_ : Unit) => s)).poll (recorded ω) n (sh, l) =
            (Prog.join (.pure { held := false, txAck := s.txAck }) q
              (fun s (_ : Unit) => s)).poll (recorded ω) n (s1,
                l ++ [.start (Tid.rx, .unlock), .ret (Tid.rx, .unlock) ()]) := by
          intro q
          rw [Prog.poll, e2, Prog.poll, Prog.poll]
        have hh : Handle (.join (.pure { held := false, txAck := s.txAck })
            (rx (.driverReceived { buffer := b, dirty := true })) (fun (s : RxState) (_ : Unit) => s)) :=
          ⟨⟨trivial, rfl⟩, ⟨trivial, trivial⟩⟩
        have := hh.step (D := D) (F := F) ω n (x := (s1,
          l ++ [.start (Tid.rx, .unlock), .ret (Tid.rx, .unlock) ()]))
          (fun h => by rw [Full, h1]; exact hF h) h0
        exact (e3 (rx (.driverReceived { buffer := b, dirty := true }))).symm ▸ this
  · exact trivial
  · exact trivial

theorem giveUp_ready (s : RxState) (n : Nat) (x : Shared W × List (Ev CallAns)) :
    ∃ x' : Shared W × List (Ev CallAns), (giveUp s).poll (recorded ω) n x =
      (.ready { s with held := false }, x') ∧ x'.1.signal = x.1.signal := by
  obtain ⟨sh, l⟩ := x
  obtain ⟨s1, e, h1, -⟩ := unlock_start ω .rx sh
  exact ⟨_, poll_bind_ready (poll_await_some (record_start_some ω e)), h1⟩

/-- After the first branch of `listen`: something was received. -/
theorem afterListen_heard (D : Device) (s : RxState) (n : Nat) {F H : Prop} (r : Bool × Arr 128)
    {x : Shared W × List (Ev CallAns)} (hF : F → Full x.1) {h0 : Nat} (hh : h0 < heard x.2) :
    RxStep D F H h0 ((afterListen D s (r.1, some r.2)).poll (recorded ω) n x) := by
  obtain ⟨r, b⟩ := r
  cases r with
  | true => exact handleReceived_step ω D s b n hF hh
  | false =>
    obtain ⟨x', e, h1⟩ := giveUp_ready ω s n x
    have hp := poll_prefix (deviceWorld ω) n (giveUp s) x
    show RxStep D F H h0 ((giveUp s).poll (recorded ω) n x)
    rw [e] at hp ⊢
    intro h
    exact Or.inr ⟨by rw [Full, h1]; exact hF h, Or.inr (Nat.lt_of_lt_of_le hh (heard_mono hp))⟩

/-- After its second branch: there is no signal any more. -/
theorem afterListen_signal (D : Device) (s : RxState) (n : Nat) {F H : Prop}
    {x : Shared W × List (Ev CallAns)} (hr : x.1.signal.isReady = false) (h0 : Nat) :
    RxStep D F H h0 ((afterListen D s (false, none)).poll (recorded ω) n x) := by
  obtain ⟨x', e, h1⟩ := giveUp_ready ω s n x
  show RxStep D F H h0 ((giveUp s).poll (recorded ω) n x)
  rw [e]
  exact fun _ => Or.inl ⟨rfl, by rw [h1]; exact hr⟩

theorem afterLock_step (D : Device) (s : RxState) (n : Nat) {F H : Prop}
    {x : Shared W × List (Ev CallAns)} (hF : F → Full x.1) {h0 : Nat} (hh : h0 ≤ heard x.2)
    (hs : SoundSignal x.1) :
    RxStep D F H h0 ((afterLock D s).poll (recorded ω) n x) := by
  obtain ⟨sh, l⟩ := x
  have hl : listen D = .select (Prog.await (Ans := CallAns) (Tid.rx, Op.radioReceive (rxCfg D)))
      (Prog.await (Ans := CallAns) (Tid.rx, Op.recvSignal)) (listenK (rxCfg D)) := by
    rw [listen]
    congr 1
    funext r
    cases r <;> rfl
  rw [afterLock, hl]
  rcases e : (deviceWorld ω).start (Tid.rx, Op.radioReceive (rxCfg D)) sh with ⟨_ | r, sh1⟩
  · have hsig : sh1.signal = sh.signal := by
      have := noSignal_start ω (Tid.rx, Op.radioReceive (rxCfg D)) sh ⟨by simp, by simp⟩
      rw [e] at this
      exact this
    have e1 := poll_await_none (fuel := n) (record_start_none ω (l := l) e)
    cases hr : sh1.signal.isReady with
    | true =>
      obtain ⟨sh2, e2, h2, -⟩ := recvSignal_full (s := sh1) ⟨hr, by
        rw [hsig] at hr ⊢; exact hs hr⟩
      rw [poll_bind_ready (poll_select_second e1 (poll_await_some (fuel := n)
        (record_start_some ω (e := (Tid.rx, Op.recvSignal)) e2)))]
      exact afterListen_signal ω D s n h2 h0
    | false =>
      obtain ⟨sh2, e2, h2⟩ := recvSignal_empty hr
      rw [poll_bind_pending (poll_select_pending e1 (poll_await_none (fuel := n)
        (record_start_none ω (e := (Tid.rx, Op.recvSignal)) e2)))]
      refine Or.inr (Or.inr ⟨s, rfl, fun h => ?_⟩)
      have := (hF h).1
      rw [← hsig, hr] at this
      cases this
  · have hsig : sh1.signal = sh.signal := by
      have := noSignal_start ω (Tid.rx, Op.radioReceive (rxCfg D)) sh ⟨by simp, by simp⟩
      rw [e] at this
      exact this
    rw [poll_bind_ready (poll_select_first (poll_await_some (fuel := n)
      (record_start_some ω (l := l) e)))]
    refine afterListen_heard ω D s n r (fun h => by rw [Full, hsig]; exact hF h) ?_
    have : heard (l ++ [.start (Tid.rx, Op.radioReceive (rxCfg D)), .ret (Tid.rx, Op.radioReceive (rxCfg D)) r])
        = heard l + 1 := by
      simp [heard, heardSomething]
    rw [this]
    exact Nat.lt_succ_of_le hh

theorem listenW_step (D : Device) (s : RxState) (n : Nat) {F H : Prop}
    {x : Shared W × List (Ev CallAns)} (hF : F → Full x.1) {h0 : Nat} (hh : h0 ≤ heard x.2)
    (hs : SoundSignal x.1) :
    RxStep D F H h0 ((listenW D s).poll (recorded ω) n x) := by
  obtain ⟨sh, l⟩ := x
  rw [listenW]
  rcases e : (deviceWorld ω).poll (Tid.rx, Op.radioReceive (rxCfg D)) sh with ⟨_ | r, sh1⟩
  · have hsig : sh1.signal = sh.signal := by
      have := noSignal_poll ω (Tid.rx, Op.radioReceive (rxCfg D)) sh ⟨by simp, by simp⟩
      rw [e] at this
      exact this
    have e1 := poll_wait_none (fuel := n) (record_poll_none ω (l := l) e)
    cases hr : sh1.signal.isReady with
    | true =>
      obtain ⟨sh2, e2, h2, -⟩ := recvSignal_full (s := sh1) ⟨hr, by
        rw [hsig] at hr ⊢; exact hs hr⟩
      rw [poll_bind_ready (poll_select_second e1 (poll_wait_some (fuel := n)
        (record_poll_some ω (e := (Tid.rx, Op.recvSignal)) e2)))]
      exact afterListen_signal ω D s n h2 h0
    | false =>
      obtain ⟨sh2, e2, h2⟩ := recvSignal_empty hr
      rw [poll_bind_pending (poll_select_pending e1 (poll_wait_none (fuel := n)
        (record_poll_none ω (e := (Tid.rx, Op.recvSignal)) e2)))]
      refine Or.inr (Or.inr ⟨s, rfl, fun h => ?_⟩)
      have := (hF h).1
      rw [← hsig, hr] at this
      cases this
  · have hsig : sh1.signal = sh.signal := by
      have := noSignal_poll ω (Tid.rx, Op.radioReceive (rxCfg D)) sh ⟨by simp, by simp⟩
      rw [e] at this
      exact this
    rw [poll_bind_ready (poll_select_first (poll_wait_some (fuel := n)
      (record_poll_some ω (l := l) e)))]
    refine afterListen_heard ω D s n r (fun h => by rw [Full, hsig]; exact hF h) ?_
    have : heard (l ++ [.ret (Tid.rx, Op.radioReceive (rxCfg D)) r]) = heard l + 1 := by
      simp [heard, heardSomething]
    rw [this]
    exact Nat.lt_succ_of_le hh

theorem lockRadio_free {s : Shared W} (h : s.radio.locked = false) :
    ∃ s', s.lockRadio = (some (), s') ∧ s'.signal = s.signal := by
  refine ⟨(s.lockRadio).2, ?_, ?_⟩ <;>
    simp [Shared.lockRadio, Sync.Mutex.lockPoll, h, Shared.wake]

theorem lockRadio_locked {s : Shared W} (h : s.radio.locked = true) :
    ∃ s', s.lockRadio = (none, s') ∧ s'.signal = s.signal ∧ s'.radio.locked = true := by
  refine ⟨(s.lockRadio).2, ?_, ?_, ?_⟩ <;>
    simp [Shared.lockRadio, Sync.Mutex.lockPoll, h, Shared.wake]

theorem lockW_step (D : Device) (s : RxState) (n : Nat) {F H : Prop}
    {x : Shared W × List (Ev CallAns)} (hF : F → Full x.1) {h0 : Nat} (hh : h0 ≤ heard x.2)
    (hs : SoundSignal x.1) :
    RxStep D F H h0 ((lockW D s).poll (recorded ω) n x) := by
  obtain ⟨sh, l⟩ := x
  rw [lockW]
  cases hk : sh.radio.locked with
  | true =>
    obtain ⟨s', e, h1, h2⟩ := lockRadio_locked hk
    rw [poll_bind_pending (poll_wait_none (record_poll_none ω (e := (Tid.rx, Op.lock)) e))]
    exact Or.inl ⟨s, rfl, h2, fun h => by rw [Full, h1]; exact hF h⟩
  | false =>
    obtain ⟨s', e, h1⟩ := lockRadio_free hk
    rw [poll_bind_ready (poll_wait_some (record_poll_some ω (e := (Tid.rx, Op.lock)) e))]
    refine afterLock_step ω D s n (fun h => by rw [Full, h1]; exact hF h) ?_
      (by rw [SoundSignal, h1]; exact hs)
    exact hh.trans (heard_mono (List.prefix_append _ _))

theorem afterYield_step (D : Device) (s : RxState) (n : Nat) {F H : Prop}
    {x : Shared W × List (Ev CallAns)} (hF : F → Full x.1) {h0 : Nat} (hh : h0 ≤ heard x.2)
    (hs : SoundSignal x.1) :
    RxStep D F H h0 ((afterYield D s).poll (recorded ω) n x) := by
  obtain ⟨sh, l⟩ := x
  rw [afterYield]
  cases hd : s.held with
  | true =>
    have e1 : (Prog.when (!true) (rx .lock)).poll (recorded ω) n (sh, l) = (.ready (), (sh, l)) :=
      rfl
    rw [poll_bind_ready e1]
    exact afterLock_step ω D s n hF hh hs
  | false =>
    show RxStep D F H h0 ((Prog.bind (Prog.await (Ans := CallAns) (Tid.rx, Op.lock))
      fun _ => afterLock D s).poll (recorded ω) n (sh, l))
    cases hk : sh.radio.locked with
    | true =>
      obtain ⟨s', e, h1, h2⟩ := lockRadio_locked hk
      rw [poll_bind_pending (poll_await_none (record_start_none ω (e := (Tid.rx, Op.lock)) e))]
      exact Or.inl ⟨s, rfl, h2, fun h => by rw [Full, h1]; exact hF h⟩
    | false =>
      obtain ⟨s', e, h1⟩ := lockRadio_free hk
      rw [poll_bind_ready (poll_await_some (record_start_some ω (e := (Tid.rx, Op.lock)) e))]
      refine afterLock_step ω D s n (fun h => by rw [Full, h1]; exact hF h) ?_
        (by rw [SoundSignal, h1]; exact hs)
      exact hh.trans (heard_mono (List.prefix_append _ _))

theorem yieldW_step (D : Device) (s : RxState) (n : Nat) {F H : Prop}
    {x : Shared W × List (Ev CallAns)} (hF : F → Full x.1) {h0 : Nat} (hh : h0 ≤ heard x.2)
    (hs : SoundSignal x.1) :
    RxStep D F H h0 ((yieldW D s).poll (recorded ω) n x) := by
  obtain ⟨sh, l⟩ := x
  rw [yieldW, poll_bind_ready (poll_wait_some (record_poll_some ω
    (e := (Tid.rx, Op.yieldNow)) (r := ()) (s' := sh) rfl))]
  exact afterYield_step ω D s n (x := (sh, l ++ [.ret (Tid.rx, Op.yieldNow) ()])) hF (hh.trans (heard_mono (List.prefix_append _ _))) hs

/-! ## A poll of the receive task -/

theorem rxLoop_poll (D : Device) (s : RxState) (n : Nat) (sh : Shared W) (l : List (Ev CallAns)) :
    (Prog.loop (rxBody D) s).poll (recorded ω) (n + 1) (sh, l) =
      (.pending (rxCtx D (yieldW D s)), (sh.wake [()], l ++ [.start (Tid.rx, .yieldNow)])) := rfl

/-- Where the receive task is while the transmit task wants the radio, with a bound on the number
of polls until the latter has it. -/
inductive Phase (D : Device) (sh : Shared W) : Csma.Task RxState → Nat → Prop where
  /-- it has given the radio up -/
  | gone {s : RxState} : s.held = false → sh.signal.isReady = false → sh.woken = true →
      Phase D sh (yieldW D s) 1
  /-- it is about to listen, and to learn that the radio is wanted -/
  | next {s : RxState} : Full sh → sh.woken = true → Phase D sh (yieldW D s) 2
  /-- it is handling a frame -/
  | handle {q : Csma.Task RxState} : Handle q → q.waits ≠ [] → Full sh → Phase D sh q 3
  /-- it waits for the radio (this will turn out to be impossible) -/
  | lock {s : RxState} : Full sh → sh.radio.locked = true → Phase D sh (lockW D s) 2

/-- What a poll of the receive task leads to.  `F`: there was a signal; `H`: it was handling a
frame; `h0`: how often the radio had received something. -/
def RxPolled (D : Device) (F H : Prop) (h0 : Nat)
    (res : Prog.Res CallAns Empty × (Shared W × List (Ev CallAns))) : Prop :=
  match res.1 with
  | .pending R => ∃ q, R = rxCtx D q ∧ RxInner D q ∧ (F → ∃ m, Phase D res.2.1 q m ∧
      (m = 1 ∨ h0 < heard res.2.2 ∨ H ∨ ∃ s, q = lockW D s))
  | .ready _ => True
  | .panicked => True
  | .diverged => False

theorem wake_full {sh : Shared W} (h : Full sh) : Full (sh.wake [()]) := h

theorem rx_polled {D : Device} {q : Csma.Task RxState} {n : Nat} {F H : Prop} {h0 : Nat}
    {x : Shared W × List (Ev CallAns)} (h : RxStep D F H h0 (q.poll (recorded ω) (n + 1) x)) :
    RxPolled D F H h0 ((rxCtx D q).poll (recorded ω) (n + 1) x) := by
  have hw := poll_pending (recorded ω) (n + 1) q x
  rcases e : q.poll (recorded ω) (n + 1) x with ⟨r, x1⟩
  rw [e] at h
  rw [rxCtx]
  cases r with
  | pending q' =>
    rw [poll_bind_pending (poll_bind_pending e)]
    refine ⟨q', rfl, ?_⟩
    rcases h with ⟨s, rfl, h1, h2⟩ | ⟨h1, h2, h3⟩ | ⟨s, rfl, h1⟩
    · exact ⟨.lock s, fun hF => ⟨2, .lock (h2 hF) h1, Or.inr (Or.inr (Or.inr ⟨s, rfl⟩))⟩⟩
    · refine ⟨.handle h1, fun hF => ⟨3, .handle h1 (hw _ _ e).1 (h2 hF), ?_⟩⟩
      rcases h3 with h3 | h3
      · exact Or.inr (Or.inr (Or.inl h3))
      · exact Or.inr (Or.inl h3)
    · exact ⟨.listen s, fun hF => absurd hF h1⟩
  | ready s =>
    obtain ⟨sh, l⟩ := x1
    have e1 : (Prog.bind q fun s => (.pure (.inl s) : Csma.Task (Sum RxState Empty))).poll
        (recorded ω) (n + 1) x = (.ready (Sum.inl s), (sh, l)) := poll_bind_ready e
    rw [poll_bind_ready e1]
    show RxPolled D F H h0 ((Prog.loop (rxBody D) s).poll (recorded ω) (n + 1) (sh, l))
    rw [rxLoop_poll]
    refine ⟨_, rfl, .yield s, fun hF => ?_⟩
    have hwk : (sh.wake [()]).woken = true := by simp [Shared.wake]
    rcases h hF with ⟨h1, h2⟩ | ⟨h1, h2⟩
    · exact ⟨1, .gone h1 h2 hwk, Or.inl rfl⟩
    · refine ⟨2, .next (wake_full h1) hwk, ?_⟩
      rcases h2 with h2 | h2
      · exact Or.inr (Or.inr (Or.inl h2))
      · refine Or.inr (Or.inl ?_)
        simp only
        exact Nat.lt_of_lt_of_le h2 (heard_mono (List.prefix_append _ _))
  | panicked => rw [poll_bind_panicked (poll_bind_panicked e)]; trivial
  | diverged => exact h.elim

theorem RxInner.polled {D : Device} {q : Csma.Task RxState} (hq : RxInner D q) (n : Nat) {F : Prop}
    {x : Shared W × List (Ev CallAns)} (hF : F → Full x.1) (hs : SoundSignal x.1) :
    RxPolled D F (Handle q) (heard x.2) ((rxCtx D q).poll (recorded ω) (n + 1) x) := by
  cases hq with
  | yield s => exact rx_polled ω (yieldW_step ω D s _ hF (Nat.le_refl _) hs)
  | lock s => exact rx_polled ω (lockW_step ω D s _ hF (Nat.le_refl _) hs)
  | listen s => exact rx_polled ω (listenW_step ω D s _ hF (Nat.le_refl _) hs)
  | handle h =>
    have := rx_polled ω (h.step ω (n + 1) hF (heard x.2) (D := D))
    simpa only [h, true_iff] using this

/-! ## A poll of the device -/

/-- The device, once the radio is enabled. -/
def devRun (T R : Csma.Task Empty) : Csma.Task Empty :=
  .bind (.select T R fun _ => ()) fun _ => .panic

/-- The device, waiting for the radio to be enabled. -/
def devEnabling (D : Device) : Csma.Task Empty :=
  .bind (.wait (Tid.tx, Op.radioEnable) id) fun _ => devRun (transmitTask D) (receiveTask D)

theorem runDevice_eq (D : Device) : runDevice D =
    .bind (Prog.await (Ans := CallAns) (Tid.tx, Op.radioEnable)) fun _ =>
      devRun (transmitTask D) (receiveTask D) := rfl

/-- What is left of a device, with the world then. -/
def DevInv (D : Device) (p : Csma.Task Empty) (sh : Shared W) : Prop :=
  p = devEnabling D ∨ ∃ T q, p = devRun T (rxCtx D q) ∧ Good T ∧ RxInner D q ∧
    (WantsRadio T → ∃ m, Phase D sh q m)

theorem wantsRadio_rx {D : Device} {q : Csma.Task RxState} (hq : RxInner D q) :
    ¬ WantsRadio (rxCtx D q) := by
  cases hq with
  | yield s => simp [WantsRadio, rxCtx, yieldW, Prog.waits]
  | lock s => simp [WantsRadio, rxCtx, lockW, Prog.waits]
  | listen s => simp [WantsRadio, rxCtx, listenW, Prog.waits]
  | handle h =>
    intro hw
    have := h.1.mem_waits _ hw
    cases this

theorem devRun_wants {D : Device} {T : Csma.Task Empty} {q : Csma.Task RxState}
    (hq : RxInner D q) : WantsRadio (devRun T (rxCtx D q)) ↔ WantsRadio T := by
  have := wantsRadio_rx hq
  simp only [WantsRadio, devRun, Prog.waits, List.mem_append] at this ⊢
  simp [this]

theorem devRun_pending {T R p : Csma.Task Empty} {n : Nat} {x x' : Shared W × List (Ev CallAns)}
    (h : (devRun T R).poll (recorded ω) n x = (.pending p, x')) :
    ∃ T' R' x1, T.poll (recorded ω) n x = (.pending T', x1) ∧
      R.poll (recorded ω) n x1 = (.pending R', x') ∧ p = devRun T' R' := by
  rw [devRun, Prog.poll, Prog.poll] at h
  rcases eT : T.poll (recorded ω) n x with ⟨r, x1⟩
  rw [eT] at h
  cases r with
  | pending T' =>
    rcases eR : R.poll (recorded ω) n x1 with ⟨r, x2⟩
    simp only [eR] at h
    cases r with
    | pending R' =>
      cases h
      exact ⟨T', R', x1, rfl, eR, rfl⟩
    | ready a => exact a.elim
    | panicked => cases h
    | diverged => cases h
  | ready a => exact a.elim
  | panicked => cases h
  | diverged => cases h

theorem devRun_of {T T' R : Csma.Task Empty} {n : Nat} {x x1 : Shared W × List (Ev CallAns)}
    (hT : T.poll (recorded ω) n x = (.pending T', x1))
    (hR : (R.poll (recorded ω) n x1).1 ≠ .diverged) :
    ((devRun T R).poll (recorded ω) n x).1 = .panicked ∨ ∃ R' x2,
      R.poll (recorded ω) n x1 = (.pending R', x2) ∧
      (devRun T R).poll (recorded ω) n x = (.pending (devRun T' R'), x2) := by
  rcases eR : R.poll (recorded ω) n x1 with ⟨r, x2⟩
  rw [eR] at hR
  cases r with
  | pending R' => exact Or.inr ⟨R', x2, rfl, poll_bind_pending (poll_select_pending hT eR)⟩
  | ready a => exact a.elim
  | panicked =>
    left
    rw [devRun, Prog.poll, Prog.poll, hT]
    simp only [eR]
  | diverged => exact absurd rfl hR

theorem devRun_prefix {T R : Csma.Task Empty} {n : Nat} {x : Shared W × List (Ev CallAns)} :
    (T.poll (recorded ω) n x).2.2 <+: ((devRun T R).poll (recorded ω) n x).2.2 := by
  rw [devRun, Prog.poll, Prog.poll]
  rcases eT : T.poll (recorded ω) n x with ⟨r, x1⟩
  cases r with
  | pending T' =>
    have := poll_prefix (deviceWorld ω) n R x1
    rcases eR : R.poll (recorded ω) n x1 with ⟨r, x2⟩
    rw [eR] at this
    simp only [eR]
    cases r with
    | pending R' => exact this
    | ready a => exact a.elim
    | panicked => exact this
    | diverged => exact this
  | ready a => exact a.elim
  | panicked => exact List.prefix_refl _
  | diverged => exact List.prefix_refl _

/-- Where a device can be between polls. -/
theorem devInv_step {D : Device} {p p' : Csma.Task Empty} {n : Nat}
    {x x' : Shared W × List (Ev CallAns)}
    (hp : p = runDevice D ∨ DevInv D p x.1) (hs : SoundSignal x.1) (env : W → W)
    (h : p.poll (recorded ω) (n + 1) (nextPoll env x) = (.pending p', x')) : DevInv D p' x'.1 := by
  -- the two tasks, from wherever the receive task is
  have key : ∀ (T R : Csma.Task Empty) (x : Shared W × List (Ev CallAns)), Good T → SoundSignal x.1 →
      (R = receiveTask D ∨ ∃ q, R = rxCtx D q ∧ RxInner D q) →
      (devRun T R).poll (recorded ω) (n + 1) x = (.pending p', x') → DevInv D p' x'.1 := by
    intro T R x hT hs hR h
    obtain ⟨T', R', x1, eT, eR, rfl⟩ := devRun_pending ω h
    obtain ⟨g1, g2⟩ := good_polled ω hT (n + 1) _ _ _ eT
    have hs1 : SoundSignal x1.1 := by
      have := poll_inv (J := fun x => SoundSignal x.1) (ω := recorded ω)
        (fun e w hw => by rw [record_start_fst]; exact sound_start ω e _ hw)
        (fun e w hw => by rw [record_poll_fst]; exact sound_poll ω e _ hw) (n + 1) T x hs
      rw [eT] at this
      exact this
    have hF : WantsRadio T' → Full x1.1 := fun hw => ⟨g2 hw, hs1 (g2 hw)⟩
    right
    rcases hR with rfl | ⟨q, rfl, hq⟩
    · obtain ⟨sh1, l1⟩ := x1
      rw [receiveTask_eq, rxLoop_poll] at eR
      cases eR
      exact ⟨T', _, rfl, g1, .yield _, fun hw => ⟨2, .next (hF hw) (by simp [Shared.wake])⟩⟩
    · have := hq.polled ω n hF hs1
      rw [eR] at this
      obtain ⟨q', rfl, hq', hph⟩ := this
      exact ⟨T', q', rfl, g1, hq', fun hw => (hph hw).imp fun m hm => hm.1⟩
  have hs' : SoundSignal (nextPoll env x).1 := hs
  generalize nextPoll env x = y at h hs'
  rcases hp with rfl | rfl | ⟨T, q, rfl, hT, hq, -⟩
  · rw [runDevice_eq] at h
    obtain ⟨sh, l⟩ := y
    rcases e : (deviceWorld ω).start (Tid.tx, Op.radioEnable) sh with ⟨_ | r, sh1⟩
    · rw [poll_bind_pending (poll_await_none (record_start_none ω e))] at h
      cases h
      exact Or.inl rfl
    · rw [poll_bind_ready (poll_await_some (record_start_some ω e))] at h
      refine key _ _ _ (transmitTask_good D) ?_ (Or.inl rfl) h
      have := sound_start ω (Tid.tx, Op.radioEnable) sh hs'
      rw [e] at this
      exact this
  · rw [devEnabling] at h
    obtain ⟨sh, l⟩ := y
    rcases e : (deviceWorld ω).poll (Tid.tx, Op.radioEnable) sh with ⟨_ | r, sh1⟩
    · rw [poll_bind_pending (poll_wait_none (record_poll_none ω e))] at h
      cases h
      exact Or.inl rfl
    · rw [poll_bind_ready (poll_wait_some (record_poll_some ω e))] at h
      refine key _ _ _ (transmitTask_good D) ?_ (Or.inl rfl) h
      have := sound_poll ω (Tid.tx, Op.radioEnable) sh hs'
      rw [e] at this
      exact this
  · exact key T _ _ hT hs' (Or.inr ⟨q, rfl, hq⟩) h

/-! ## Histories -/

/-- A state a device can be in between polls. -/
def Reached (D : Device) (n : Nat) (p : Csma.Task Empty) (x : Shared W × List (Ev CallAns)) :
    Prop :=
  ∃ (sched : List (W → W)) (w : W), (runDevice D).run (recorded ω) n (sched.map nextPoll)
    ({ base := w }, []) = (.pending p, x)

theorem run_append {Eff : Type} {Ans : Eff → Type} {Ω α : Type} (ω : Prog.World Ans Ω) (n : Nat)
    (s1 s2 : List (Ω → Ω)) : ∀ (p : Prog Ans α) (x : Ω), p.run ω n (s1 ++ s2) x =
      match p.run ω n s1 x with
      | (.pending p', x') => p'.run ω n s2 x'
      | r => r := by
  induction s1 with
  | nil => intro p x; rfl
  | cons env s1 ih =>
    intro p x
    simp only [List.cons_append, Prog.run]
    rcases p.poll ω n (env x) with ⟨r, x1⟩
    cases r with
    | pending p' => exact ih p' x1
    | ready a => rfl
    | panicked => rfl
    | diverged => rfl

theorem Reached.inv {D : Device} {n : Nat} {p : Csma.Task Empty}
    {x : Shared W × List (Ev CallAns)} (h : Reached ω D (n + 1) p x) :
    (p = runDevice D ∨ DevInv D p x.1) ∧ SoundSignal x.1 := by
  obtain ⟨sched, w, h⟩ := h
  have key : ∀ (sched : List (W → W)) (p0 : Csma.Task Empty) (x0 : Shared W × List (Ev CallAns)),
      (p0 = runDevice D ∨ DevInv D p0 x0.1) → SoundSignal x0.1 →
      p0.run (recorded ω) (n + 1) (sched.map nextPoll) x0 = (.pending p, x) →
      (p = runDevice D ∨ DevInv D p x.1) ∧ SoundSignal x.1 := by
    intro sched
    induction sched with
    | nil => intro p0 x0 h1 h2 h; cases h; exact ⟨h1, h2⟩
    | cons env sched ih =>
      intro p0 x0 h1 h2 h
      simp only [List.map_cons, Prog.run] at h
      rcases e : p0.poll (recorded ω) (n + 1) (nextPoll env x0) with ⟨r, x1⟩
      rw [e] at h
      have hs1 : SoundSignal x1.1 := by
        have := poll_inv (J := fun x => SoundSignal x.1) (ω := recorded ω)
          (fun e w hw => by rw [record_start_fst]; exact sound_start ω e _ hw)
          (fun e w hw => by rw [record_poll_fst]; exact sound_poll ω e _ hw) (n + 1) p0
          (nextPoll env x0) h2
        rw [e] at this
        exact this
      cases r with
      | pending p1 => exact ih p1 x1 (Or.inr (devInv_step ω h1 h2 env e)) hs1 h
      | ready a => exact a.elim
      | panicked => cases h
      | diverged => cases h
  exact key sched _ _ (Or.inl rfl) (by intro h; cases h) h

theorem Reached.step {D : Device} {n : Nat} {p p' : Csma.Task Empty}
    {x x' : Shared W × List (Ev CallAns)} (h : Reached ω D n p x) (env : W → W)
    (e : p.poll (recorded ω) n (nextPoll env x) = (.pending p', x')) : Reached ω D n p' x' := by
  obtain ⟨sched, w, h⟩ := h
  refine ⟨sched ++ [env], w, ?_⟩
  rw [List.map_append, run_append, h]
  simp only [List.map_cons, List.map_nil, Prog.run, e]

theorem Reached.no_panic {D : Device} (hD : Sane D) {n : Nat} {p : Csma.Task Empty}
    {x : Shared W × List (Ev CallAns)} (h : Reached ω D n p x) (env : W → W) :
    (p.poll (recorded ω) n (nextPoll env x)).1 ≠ .panicked := by
  obtain ⟨sched, w, h⟩ := h
  intro hp
  have h58 := (C58_polled D hD (deviceWorld ω) n ((sched ++ [env]).map fun env s =>
    { s with base := env s.base, woken := false }) { base := w }).1
  have e : ((sched ++ [env]).map fun env (s : Shared W) =>
      { s with base := env s.base, woken := false }).map (fun env
        (x : Shared W × List (Ev CallAns)) => (env x.1, x.2)) =
      (sched ++ [env]).map nextPoll := by
    rw [List.map_map]; rfl
  rw [e, List.map_append, run_append, h] at h58
  simp only [List.map_cons, List.map_nil, Prog.run] at h58
  rcases hq : p.poll (recorded ω) n (nextPoll env x) with ⟨r, x1⟩
  rw [hq] at hp
  simp only at hp
  subst hp
  simp only [hq] at h58
  rcases h58 with ⟨_, h⟩ | h <;> cases h

theorem Reached.outcome {D : Device} {n : Nat} {p : Csma.Task Empty}
    {x : Shared W × List (Ev CallAns)} (h : Reached ω D n p x) (hp : p ≠ runDevice D) :
    (∀ t o, Exec p t o → Exec (runDevice D) (x.2 ++ t) o) ∧ LockJ x := by
  obtain ⟨sched, w, h⟩ := h
  have e : (sched.map fun env (s : Shared W) =>
      { s with base := env s.base, woken := false }).map (fun env
        (x : Shared W × List (Ev CallAns)) => (env x.1, x.2)) = sched.map nextPoll := by
    rw [List.map_map]; rfl
  constructor
  · have hs : sched ≠ [] := by
      rintro rfl
      cases h
      exact hp rfl
    obtain ⟨t, h1, h2⟩ := run_outcome (deviceWorld ω) n (sched.map fun env (s : Shared W) =>
      { s with base := env s.base, woken := false }) (runDevice D) { base := w } [] (by simpa using hs)
    rw [e, h] at h1 h2
    have h1 : x.2 = t := h1
    rw [h1]
    exact h2.2
  · have h0 : LockJ (({ base := w }, []) : Shared W × List (Ev CallAns)) := by
      intro a b ha hb
      cases ha
      cases hb
      refine ⟨?_, by simp [Sync.Mutex.new]⟩
      intro l' hl'
      rw [List.prefix_nil] at hl'
      subst hl'
      exact ⟨.free, .free, rfl, rfl, Or.inl rfl⟩
    have := run_inv (lockJ_start ω) (lockJ_poll ω) n (sched.map nextPoll) (by
      intro env henv x hx
      obtain ⟨f, -, rfl⟩ := List.mem_map.1 henv
      exact hx) (runDevice D) _ h0
    rw [h] at this
    exact this

/-! ## Who holds the radio -/

theorem AcqCtx.exec {α : Type} {p : Csma.Task α} (h : AcqCtx p) :
    Exec p [.ret (Tid.tx, .sendSignal) (), .start (Tid.tx, .tryLock),
      .ret (Tid.tx, .tryLock) true] .cut := by
  induction h with
  | acq =>
    refine Exec.bind (t := [Ev.ret (Ans := CallAns) (Tid.tx, Op.sendSignal) ()]) (b := Sum.inl ())
      (Exec.bind (t := [Ev.ret (Ans := CallAns) (Tid.tx, Op.sendSignal) ()]) (t' := []) (Exec.wait _ _ _) (Exec.pure _))
      (Exec.loopStop (a := ()) ?_)
    exact Exec.bind (t := [Ev.start (Ans := CallAns) (Tid.tx, Op.tryLock),
      Ev.ret (Ans := CallAns) (Tid.tx, Op.tryLock) true]) (t' := [])
      (Exec.call _ _ _) (Exec.pure _)
  | bind _ ih => exact .bindCut ih

theorem free_of_acquires {i : Tid} {l t : List (Ev CallAns)} {ev : Ev CallAns}
    (ht : ∀ s, walk (radioStep i) s t = some s) (hev : radioEv ev = some (i, .acquired))
    (h : usage i (l ++ (t ++ [ev])) ≠ none) : usage i l = some .free := by
  rw [usage, walk_append, ← usage] at h
  cases hu : usage i l with
  | none => rw [hu] at h; exact absurd rfl h
  | some s =>
    rw [hu] at h
    simp only [Option.bind_some] at h
    rw [walk_append, ht] at h
    simp only [Option.bind_some, walk_singleton] at h
    rw [radioStep, hev] at h
    cases s with
    | free => rfl
    | held => exact absurd (by simp [RadioUse.next]) h
    | transmitting => exact absurd (by simp [RadioUse.next]) h
    | receiving => exact absurd (by simp [RadioUse.next]) h

theorem devRun_ne (D : Device) (T R : Csma.Task Empty) : devRun T R ≠ runDevice D := by
  rw [runDevice_eq, devRun]
  intro h
  injection h with _ _ h
  exact Prog.noConfusion rfl (heq_of_eq rfl) rfl (heq_of_eq h)

theorem Reached.tx_free {D : Device} {n : Nat} {T R : Csma.Task Empty}
    {x : Shared W × List (Ev CallAns)} (h : Reached ω D n (devRun T R) x) (hT : AcqCtx T) :
    usage .tx x.2 = some .free := by
  have hne := devRun_ne D T R
  obtain ⟨h1, -⟩ := h.outcome ω hne
  have he := h1 _ _ (.bindCut (.selectCut hT.exec (.cut R) (interleave_self_nil _)))
  exact free_of_acquires (t := [.ret (Tid.tx, .sendSignal) (), .start (Tid.tx, .tryLock)])
    (fun s => rfl) (i := .tx) rfl (C57_protocol D .tx he)

theorem Reached.rx_free {D : Device} {n : Nat} {T R : Csma.Task Empty}
    {x : Shared W × List (Ev CallAns)} (h : Reached ω D n (devRun T R) x)
    {t : List (Ev CallAns)} (hR : Exec R (t ++ [.ret (Tid.rx, .lock) ()]) .cut)
    (ht : ∀ s, walk (radioStep .rx) s t = some s) :
    usage .rx x.2 = some .free := by
  have hne := devRun_ne D T R
  obtain ⟨h1, -⟩ := h.outcome ω hne
  have he := h1 _ _ (.bindCut (.selectCut (.cut T) hR (interleave_comm (interleave_self_nil _))))
  exact free_of_acquires ht (i := .rx) rfl (C57_protocol D .rx he)

theorem Reached.unlocked {D : Device} {n : Nat} {T R : Csma.Task Empty}
    {x : Shared W × List (Ev CallAns)} (h : Reached ω D n (devRun T R) x) (hT : AcqCtx T)
    {t : List (Ev CallAns)} (hR : Exec R (t ++ [.ret (Tid.rx, .lock) ()]) .cut)
    (ht : ∀ s, walk (radioStep .rx) s t = some s) : x.1.radio.locked = false := by
  have := ((h.outcome ω (devRun_ne D T R)).2 _ _ (h.tx_free ω hT) (h.rx_free ω hR ht)).2
  simpa using this

theorem lockW_exec (D : Device) (s : RxState) :
    Exec (rxCtx D (lockW D s)) ([] ++ [.ret (Tid.rx, .lock) ()]) .cut := by
  refine .bindCut (.bindCut ?_)
  exact Exec.bind (t := [Ev.ret (Ans := CallAns) (Tid.rx, Op.lock) ()]) (t' := [])
    (Exec.wait _ _ _) (.cut _)

theorem yieldW_exec (D : Device) (s : RxState) (hs : s.held = false) :
    Exec (rxCtx D (yieldW D s)) ([.ret (Tid.rx, .yieldNow) (), .start (Tid.rx, .lock)] ++
      [.ret (Tid.rx, .lock) ()]) .cut := by
  refine .bindCut (.bindCut ?_)
  refine Exec.bind (t := [Ev.ret (Ans := CallAns) (Tid.rx, Op.yieldNow) ()]) (Exec.wait _ _ _) ?_
  rw [afterYield, hs]
  exact Exec.bind (t := [Ev.start (Ans := CallAns) (Tid.rx, Op.lock),
    Ev.ret (Ans := CallAns) (Tid.rx, Op.lock) ()]) (t' := []) (Exec.call _ _ _) (.cut _)

/-- Where a device is that wants the radio. -/
theorem Reached.phase {D : Device} {n : Nat} {p : Csma.Task Empty}
    {x : Shared W × List (Ev CallAns)} (h : Reached ω D (n + 1) p x) (hw : WantsRadio p) :
    ∃ T q m, p = devRun T (rxCtx D q) ∧ AcqCtx T ∧ RxInner D q ∧ Phase D x.1 q m ∧
      ¬ ∃ s, q = lockW D s := by
  obtain ⟨h1, -⟩ := h.inv ω
  rcases h1 with rfl | rfl | ⟨T, q, rfl, hT, hq, hph⟩
  · cases hw
  · simp [WantsRadio, devEnabling, Prog.waits] at hw
  · rw [devRun_wants hq] at hw
    obtain ⟨m, hm⟩ := hph hw
    refine ⟨T, q, m, rfl, hT.ctx hw, hq, hm, ?_⟩
    rintro ⟨s, rfl⟩
    have hu := h.unlocked ω (hT.ctx hw) (lockW_exec D s) (fun _ => rfl)
    have hl : x.1.radio.locked = true ∨ Handle (lockW D s) ∨ ∃ s', lockW D s = yieldW D s' := by
      generalize hq' : lockW D s = q' at hm
      cases hm with
      | gone => exact Or.inr (Or.inr ⟨_, rfl⟩)
      | next => exact Or.inr (Or.inr ⟨_, rfl⟩)
      | handle h => exact Or.inr (Or.inl h)
      | lock _ h => exact Or.inl h
    rcases hl with hl | hl | ⟨s', hl⟩
    · rw [hu] at hl; cases hl
    · have := hl.1.mem_waits (Tid.rx, Op.lock) (by simp [lockW, Prog.waits])
      cases this
    · have : (lockW D s).waits = (yieldW D s').waits := by rw [hl]
      simp [lockW, yieldW, Prog.waits] at this

theorem busy_of {D : Device} {T : Csma.Task Empty} {q : Csma.Task RxState} (h : Handle q)
    (hw : q.waits ≠ []) : busy (devRun T (rxCtx D q)) = true := by
  obtain ⟨e, he⟩ := List.exists_mem_of_ne_nil _ hw
  simp only [busy, devRun, rxCtx, Prog.waits, List.any_eq_true, List.mem_append]
  exact ⟨e, Or.inr he, h.1.mem_waits e he⟩

/-- One more poll of a device that wants the radio: it gets it, or it is one poll nearer to getting
it, unless it received something or is busy with what it received. -/
theorem fair_step {D : Device} (hD : Sane D) {n : Nat} {T : Csma.Task Empty}
    {q : Csma.Task RxState} {m : Nat} {x : Shared W × List (Ev CallAns)}
    (h : Reached ω D (n + 1) (devRun T (rxCtx D q)) x) (hT : AcqCtx T) (hq : RxInner D q)
    (hm : Phase D x.1 q m) (hl : ¬ ∃ s, q = lockW D s) (env : W → W) :
    (∃ t, ((devRun T (rxCtx D q)).poll (recorded ω) (n + 1) (nextPoll env x)).2.2 = x.2 ++ t ∧
      t.any gotRadio = true) ∨
    ∃ q' m' x', (devRun T (rxCtx D q)).poll (recorded ω) (n + 1) (nextPoll env x) =
        (.pending (devRun T (rxCtx D q')), x') ∧ RxInner D q' ∧ Phase D x'.1 q' m' ∧
      (¬ ∃ s, q' = lockW D s) ∧
      m' + 1 ≤ m + (heard x'.2 - heard x.2) +
        if busy (devRun T (rxCtx D q')) then 1 else 0 := by
  have hsound := (h.inv ω).2
  have taken : x.1.signal.isReady = false → x.1.radio.locked = false →
      ∃ t, ((devRun T (rxCtx D q)).poll (recorded ω) (n + 1) (nextPoll env x)).2.2 = x.2 ++ t ∧
        t.any gotRadio = true := by
    intro h1 h2
    have h3 := (hT.take ω n (s := (nextPoll env x).1) x.2 h1 h2).trans
      (devRun_prefix ω (T := T) (R := rxCtx D q) (n := n + 1) (x := nextPoll env x))
    obtain ⟨t, ht⟩ := h3
    rw [← ht, List.append_assoc]
    exact ⟨_, rfl, rfl⟩
  -- while there is a signal, the transmit task waits on, and the receive task decides
  have rest : Full x.1 → ∃ q' m' x', (devRun T (rxCtx D q)).poll (recorded ω) (n + 1)
      (nextPoll env x) = (.pending (devRun T (rxCtx D q')), x') ∧ RxInner D q' ∧
      Phase D x'.1 q' m' ∧ (¬ ∃ s, q' = lockW D s) ∧
      (m' = 1 ∨ heard x.2 < heard x'.2 ∨ Handle q) := by
    intro hf
    obtain ⟨s', eT, hf', -⟩ := hT.wait ω (n + 1) (s := (nextPoll env x).1) x.2 hf
    have hp := hq.polled ω n (F := True) (x := (s', x.2)) (fun _ => hf') (fun _ => hf'.2)
    have hnd : ((rxCtx D q).poll (recorded ω) (n + 1) (s', x.2)).1 ≠ .diverged := by
      intro hd
      rw [RxPolled, hd] at hp
      exact hp
    rcases devRun_of ω eT hnd with e | ⟨R', x2, eR, e⟩
    · exact absurd e (h.no_panic ω hD env)
    · rw [eR] at hp
      obtain ⟨q', rfl, hq', hph⟩ := hp
      obtain ⟨m', hm', hc⟩ := hph trivial
      have hr' := h.step ω env e
      have hw' : WantsRadio (devRun T (rxCtx D q')) := by
        have hw : ∀ {α : Type} {p : Csma.Task α}, AcqCtx p → WantsRadio p := by
          intro α p hp
          induction hp with
          | acq => simp [WantsRadio, acqWait, Prog.waits]
          | bind _ ih => exact ih
        exact (devRun_wants hq').2 (hw hT)
      have hl' : ¬ ∃ s, q' = lockW D s := by
        obtain ⟨T2, q2, m2, e2, -, -, -, h2⟩ := hr'.phase ω hw'
        have : q2 = q' := by
          rw [devRun, devRun] at e2
          injection e2 with _ _ e2
          injection e2 with _ _ _ e3 e4
          rw [rxCtx, rxCtx] at e4
          injection e4 with _ _ e4
          injection e4 with _ _ e4
          exact e4.symm
        rw [← this]
        exact h2
      refine ⟨q', m', x2, e, hq', hm', hl', ?_⟩
      rcases hc with hc | hc | hc | hc
      · exact Or.inl hc
      · exact Or.inr (Or.inl hc)
      · exact Or.inr (Or.inr hc)
      · exact absurd hc hl'
  have phase_cases : ∀ {q' m'} {sh : Shared W}, Phase D sh q' m' → (¬ ∃ s, q' = lockW D s) →
      m' = 1 ∨ m' = 2 ∨ (m' = 3 ∧ busy (devRun T (rxCtx D q')) = true) := by
    intro q' m' sh hm _
    cases hm with
    | gone => exact Or.inl rfl
    | next => exact Or.inr (Or.inl rfl)
    | handle h hw _ => exact Or.inr (Or.inr ⟨rfl, busy_of h hw⟩)
    | lock => exact Or.inr (Or.inl rfl)
  cases hm with
  | gone h1 h2 h3 =>
    exact Or.inl (taken h2 (h.unlocked ω hT (yieldW_exec D _ h1) (fun _ => rfl)))
  | @next s hf _ =>
    right
    obtain ⟨q', m', x', e, hq', hm', hl', hc⟩ := rest hf
    refine ⟨q', m', x', e, hq', hm', hl', ?_⟩
    have hpc := phase_cases hm' hl'
    have hH : ¬ Handle (yieldW D s) := by
      intro hh
      have := hh.1.mem_waits (Tid.rx, Op.yieldNow) (by simp [yieldW, Prog.waits])
      cases this
    rcases hc with rfl | hc | hc
    · omega
    · rcases hpc with rfl | rfl | ⟨rfl, hb⟩
      · omega
      · omega
      · rw [hb]; simp only [if_true]; omega
    · exact absurd hc hH
  | handle hh hw hf =>
    right
    obtain ⟨q', m', x', e, hq', hm', hl', -⟩ := rest hf
    refine ⟨q', m', x', e, hq', hm', hl', ?_⟩
    rcases phase_cases hm' hl' with rfl | rfl | ⟨rfl, hb⟩
    · omega
    · omega
    · rw [hb]; simp only [if_true]; omega
  | lock => exact absurd ⟨_, rfl⟩ hl

theorem fair_run {D : Device} (hD : Sane D) (n : Nat) (future : List (W → W)) :
    ∀ {T : Csma.Task Empty} {q : Csma.Task RxState} {m : Nat} {x : Shared W × List (Ev CallAns)},
    Reached ω D (n + 1) (devRun T (rxCtx D q)) x → AcqCtx T → RxInner D q → Phase D x.1 q m →
    (¬ ∃ s, q = lockW D s) →
    ∃ t, ((devRun T (rxCtx D q)).run (recorded ω) (n + 1) (future.map nextPoll) x).2.2 = x.2 ++ t ∧
      (t.any gotRadio = true ∨ ∃ q', ((devRun T (rxCtx D q)).run (recorded ω) (n + 1)
          (future.map nextPoll) x).1 = .pending (devRun T (rxCtx D q')) ∧ RxInner D q' ∧
        future.length + 1 ≤ m + t.countP heardSomething +
          busyPolls ω (n + 1) future (devRun T (rxCtx D q)) x) := by
  induction future with
  | nil =>
    intro T q m x h hT hq hm hl
    refine ⟨[], by simp [Prog.run], Or.inr ⟨q, rfl, hq, ?_⟩⟩
    cases hm <;> simp [busyPolls]
  | cons env future ih =>
    intro T q m x h hT hq hm hl
    rcases fair_step ω hD h hT hq hm hl env with ⟨t, ht, hg⟩ | ⟨q', m', x', e, hq', hm', hl', hle⟩
    · rcases e : (devRun T (rxCtx D q)).poll (recorded ω) (n + 1) (nextPoll env x) with ⟨r, x1⟩
      rw [e] at ht
      simp only at ht
      have key : ∃ t2, ((devRun T (rxCtx D q)).run (recorded ω) (n + 1)
          ((env :: future).map nextPoll) x).2.2 = x1.2 ++ t2 := by
        simp only [List.map_cons, Prog.run, e]
        cases r with
        | pending p' =>
          have : x1.2 <+: (p'.run (recorded ω) (n + 1) (future.map nextPoll) x1).2.2 := by
            clear ih e ht
            induction future generalizing p' x1 with
            | nil => exact List.prefix_refl _
            | cons env2 future ih2 =>
              simp only [List.map_cons, Prog.run]
              have h1 := poll_prefix (deviceWorld ω) (n + 1) p' (nextPoll env2 x1)
              rcases e2 : p'.poll (recorded ω) (n + 1) (nextPoll env2 x1) with ⟨r, x2⟩
              rw [e2] at h1
              cases r with
              | pending p2 => exact h1.trans (ih2 x2 p2)
              | ready a => exact a.elim
              | panicked => exact h1
              | diverged => exact h1
          obtain ⟨t2, ht2⟩ := this
          exact ⟨t2, ht2.symm⟩
        | ready a => exact a.elim
        | panicked => exact ⟨[], by simp⟩
        | diverged => exact ⟨[], by simp⟩
      obtain ⟨t2, ht2⟩ := key
      refine ⟨t ++ t2, by rw [ht2, ht, List.append_assoc], Or.inl ?_⟩
      simp [List.any_append, hg]
    · obtain ⟨t, ht, hor⟩ := ih (h.step ω env e) hT hq' hm' hl'
      obtain ⟨t1, ht1⟩ := poll_prefix (deviceWorld ω) (n + 1) (devRun T (rxCtx D q)) (nextPoll env x)
      rw [e] at ht1
      have ht1 : x.2 ++ t1 = x'.2 := ht1
      have erun : (devRun T (rxCtx D q)).run (recorded ω) (n + 1) ((env :: future).map nextPoll) x =
          (devRun T (rxCtx D q')).run (recorded ω) (n + 1) (future.map nextPoll) x' := by
        simp only [List.map_cons, Prog.run, e]
      refine ⟨t1 ++ t, by rw [erun, ht, ← ht1, List.append_assoc], ?_⟩
      rcases hor with hor | ⟨q2, e2, hq2, hle2⟩
      · exact Or.inl (by simp [List.any_append, hor])
      · refine Or.inr ⟨q2, by rw [erun, e2], hq2, ?_⟩
        have hb : busyPolls ω (n + 1) (env :: future) (devRun T (rxCtx D q)) x =
            (if busy (devRun T (rxCtx D q')) then 1 else 0) +
              busyPolls ω (n + 1) future (devRun T (rxCtx D q')) x' := by
          simp only [busyPolls, e]
        have hc : heard x'.2 - heard x.2 = t1.countP heardSomething := by
          rw [← ht1, heard, heard, List.countP_append]
          omega
        rw [hb, List.countP_append, List.length_cons]
        rw [hc] at hle
        omega

theorem wantsRadio_of_ctx {α : Type} {p : Csma.Task α} (hp : AcqCtx p) : WantsRadio p := by
  induction hp with
  | acq => simp [WantsRadio, acqWait, Prog.waits]
  | bind _ ih => exact ih

/-- **C49**.  Consider any history of a device (`past`, in any surroundings `ω`) after which the
transmit task wants the radio, and any further polls (`future`).  Either the transmit task gets the
radio in the meantime, or there are at most two of them, not counting those that received something
and those after which the receive task is still busy with what it received. -/
theorem C49_gets_radio (D : Device) (hD : Sane D) (fuel : Nat) (past future : List (W → W)) (w : W)
    (p : Csma.Task Empty) (x : Shared W × List (Ev CallAns))
    (h : (runDevice D).run (deviceWorld ω).record (fuel + 1) (past.map nextPoll)
      ({ base := w }, []) = (.pending p, x))
    (hw : WantsRadio p) :
    let y := p.run (deviceWorld ω).record (fuel + 1) (future.map nextPoll) x
    ∃ t, y.2.2 = x.2 ++ t ∧ (t.any gotRadio = true ∨
      (∃ p', y.1 = .pending p' ∧ WantsRadio p') ∧
      future.length ≤ 2 + t.countP heardSomething + busyPolls ω (fuel + 1) future p x) := by
  intro y
  have hr : Reached ω D (fuel + 1) p x := ⟨past, w, h⟩
  obtain ⟨T, q, m, rfl, hT, hq, hm, hl⟩ := hr.phase ω hw
  obtain ⟨t, ht, hor⟩ := fair_run ω hD fuel future hr hT hq hm hl
  refine ⟨t, ht, hor.imp id ?_⟩
  rintro ⟨q', e, hq', hle⟩
  refine ⟨⟨_, e, (devRun_wants hq').2 (wantsRadio_of_ctx hT)⟩, ?_⟩
  have : m ≤ 3 := by cases hm <;> omega
  omega

/-- **C49**, no lost wakeup: an executor that polls a device only when it was woken does poll it
again.  After every poll after which the transmit task wants the radio, the device has been woken,
or it waits for the outside to handle a received frame. -/
theorem C49_woken (D : Device) (fuel : Nat) (past : List (W → W)) (w : W)
    (p : Csma.Task Empty) (x : Shared W × List (Ev CallAns))
    (h : (runDevice D).run (deviceWorld ω).record (fuel + 1) (past.map nextPoll)
      ({ base := w }, []) = (.pending p, x))
    (hw : WantsRadio p) : x.1.woken = true ∨ busy p = true := by
  have hr : Reached ω D (fuel + 1) p x := ⟨past, w, h⟩
  obtain ⟨T, q, m, rfl, hT, hq, hm, hl⟩ := hr.phase ω hw
  cases hm with
  | gone _ _ hk => exact Or.inl hk
  | next _ hk => exact Or.inl hk
  | handle h1 h2 _ => exact Or.inr (busy_of h1 h2)
  | lock => exact absurd ⟨_, rfl⟩ hl

/-! ## A history in which it gets the radio, and one in which it does not -/

/-- The surroundings of the examples: the upper layer has a package once the state is `true`, and
then the radio does not receive anything if `quiet`; before, and if not `quiet` ever after, it
receives noise, whenever it is asked. -/
def noisy (quiet : Bool) : Prog.World CallAns Bool where
  start e w := match e with
    | (_, .radioEnable) => (some (), w)
    | (_, .radioReceive _) => (if quiet && w then none else some (true, padded [200]), w)
    | (_, .driverTransmit) => (if w then some examplePackage else none, w)
    | (_, .radioTransmit _ _) => (none, w)
    | (_, .driverReceived _) => (none, w)
    | (_, .driverError _) => (none, w)
    | (_, .rngNext) => (none, w)
    | (_, .delay _) => (none, w)
    | _ => (none, w)
  poll e w := match e with
    | (_, .driverTransmit) => (if w then some examplePackage else none, w)
    | (_, .radioReceive _) => (none, w)
    | (_, .radioTransmit _ _) => (none, w)
    | (_, .driverReceived _) => (none, w)
    | (_, .driverError _) => (none, w)
    | (_, .rngNext) => (none, w)
    | (_, .delay _) => (none, w)
    | _ => (none, w)

/-- The past of both histories: the receive task has the radio when the upper layer hands over a
package. -/
def noisyPast : List (Bool → Bool) := [id, id, fun _ => true, id]

/-- The device after it. -/
def afterPast (quiet : Bool) : Prog.Res CallAns Empty × (Shared Bool × List (Ev CallAns)) :=
  (runDevice exampleDevice).run (deviceWorld (noisy quiet)).record 3 (noisyPast.map nextPoll)
    ({ base := false }, [])

/-- What a pending future waits for. -/
def waitsOf : Prog.Res CallAns Empty → List Csma.Call
  | .pending p => p.waits
  | _ => []

theorem pending_of_waits {Ω : Type} {y : Prog.Res CallAns Empty × Ω} {e : Csma.Call}
    (h : e ∈ waitsOf y.1) : ∃ p x, y = (.pending p, x) := by
  obtain ⟨r, x⟩ := y
  cases r with
  | pending p => exact ⟨p, x, rfl⟩
  | ready a => exact a.elim
  | panicked => cases h
  | diverged => cases h

set_option maxRecDepth 40000 in
/-- A case of `C49_gets_radio` and `C49_woken`: the transmit task wants the radio, the receive task
learns of it and gives it up, and at the next poll the transmit task gets it. -/
example : ∃ p x, afterPast true = (.pending p, x) ∧ WantsRadio p ∧ busy p = false ∧
    x.1.woken = true ∧ (x.2.any gotRadio) = false ∧
    (p.run (deviceWorld (noisy true)).record 3 ([id].map nextPoll) x).2.2.any gotRadio = true :=
  ⟨_, _, rfl, List.mem_cons_self .., rfl, rfl, rfl, rfl⟩

set_option maxRecDepth 40000 in
theorem afterPast_state : waitsOf (afterPast false).1 =
    [(Tid.tx, Op.sendSignal), (Tid.rx, Op.yieldNow)] ∧
    (afterPast false).2.1.radio.locked = true ∧ (afterPast false).2.1.signal.isReady = true :=
  ⟨rfl, rfl, rfl⟩

set_option maxRecDepth 40000 in
theorem examine_noise : examineReceived exampleDevice (padded [200]).1 = .ok none := rfl

theorem AcqCtx.waits_eq {α : Type} {p : Csma.Task α} (hp : AcqCtx p) :
    p.waits = [(Tid.tx, Op.sendSignal)] := by
  induction hp with
  | acq => simp [acqWait, Prog.waits]
  | bind _ ih => exact ih

/-- One more poll of a device in noise: nothing changes. -/
theorem noise_step {T : Csma.Task Empty} (hT : AcqCtx T) {s : RxState} (hs : s.held = true)
    {x : Shared Bool × List (Ev CallAns)} (hf : Full x.1) (n : Nat) :
    ∃ s' : RxState, s'.held = true ∧ ∃ x' : Shared Bool × List (Ev CallAns),
      (devRun T (rxCtx exampleDevice (yieldW exampleDevice s))).poll (recorded (noisy false)) (n + 1)
        x = (.pending (devRun T (rxCtx exampleDevice (yieldW exampleDevice s'))), x') ∧
      Full x'.1 ∧ ∃ t, x'.2 = x.2 ++ t ∧ t.any gotRadio = false := by
  obtain ⟨sh, l⟩ := x
  obtain ⟨sh1, eT, hf1, -⟩ := hT.wait (noisy false) (n + 1) l hf
  obtain ⟨held, ack⟩ := s
  simp only at hs
  subst hs
  have e1 : (afterLock exampleDevice ⟨true, ack⟩).poll (recorded (noisy false)) (n + 1)
      (sh1, l ++ [.ret (Tid.rx, .yieldNow) ()]) = (.ready ⟨true, ack⟩, (sh1,
        l ++ [.ret (Tid.rx, .yieldNow) ()] ++
          [.start (Tid.rx, .radioReceive (rxCfg exampleDevice)),
            .ret (Tid.rx, .radioReceive (rxCfg exampleDevice)) (true, padded [200])])) := by
    refine (poll_bind_ready (b := (true, some (padded [200]))) (poll_select_first (poll_await_some
      (record_start_some (noisy false) (e := (Tid.rx, .radioReceive (rxCfg exampleDevice)))
        (r := (true, padded [200])) (s' := sh1) rfl)))).trans ?_
    show (handleReceived exampleDevice ⟨true, ack⟩ (padded [200])).poll _ _ _ = _
    rw [handleReceived, examine_noise]
    exact poll_bind_ready (p := Prog.lift (.ok none)) (b := none) rfl
  have e2 : (yieldW exampleDevice ⟨true, ack⟩).poll (recorded (noisy false)) (n + 1) (sh1, l) =
      (.ready ⟨true, ack⟩, (sh1, l ++ [.ret (Tid.rx, .yieldNow) ()] ++
          [.start (Tid.rx, .radioReceive (rxCfg exampleDevice)),
            .ret (Tid.rx, .radioReceive (rxCfg exampleDevice)) (true, padded [200])])) := by
    rw [yieldW, poll_bind_ready (poll_wait_some (record_poll_some (noisy false)
      (e := (Tid.rx, Op.yieldNow)) (r := ()) (s' := sh1) rfl))]
    exact (poll_bind_ready (p := Prog.when (!true) (rx .lock)) (b := ()) rfl).trans e1
  have e3 : (Prog.bind (yieldW exampleDevice ⟨true, ack⟩)
      fun s => (.pure (.inl s) : Csma.Task (Sum RxState Empty))).poll (recorded (noisy false)) (n + 1)
      (sh1, l) = (.ready (Sum.inl ⟨true, ack⟩), (sh1, l ++ [.ret (Tid.rx, .yieldNow) ()] ++
          [.start (Tid.rx, .radioReceive (rxCfg exampleDevice)),
            .ret (Tid.rx, .radioReceive (rxCfg exampleDevice)) (true, padded [200])])) :=
    poll_bind_ready e2
  have e4 : ∃ x', (rxCtx exampleDevice (yieldW exampleDevice ⟨true, ack⟩)).poll
      (recorded (noisy false)) (n + 1) (sh1, l) =
      (.pending (rxCtx exampleDevice (yieldW exampleDevice ⟨true, ack⟩)), x') ∧ Full x'.1 ∧
      ∃ t, x'.2 = l ++ t ∧ t.any gotRadio = false := by
    refine ⟨_, (poll_bind_ready e3).trans (rxLoop_poll ..), wake_full hf1,
      [.ret (Tid.rx, .yieldNow) (), .start (Tid.rx, .radioReceive (rxCfg exampleDevice)),
        .ret (Tid.rx, .radioReceive (rxCfg exampleDevice)) (true, padded [200]),
        .start (Tid.rx, .yieldNow)], ?_, rfl⟩
    simp only [List.append_assoc, List.cons_append, List.nil_append]
  obtain ⟨x', e4, hf', t, ht, hg⟩ := e4
  exact ⟨⟨true, ack⟩, rfl, x', poll_bind_pending (poll_select_pending eT e4), hf', t, ht, hg⟩

/-- **C49** needs the exception it makes: there are surroundings (a radio that receives noise
whenever it is asked to) in which the transmit task wants the radio, and does not get it in any
number of polls. -/
theorem C49_starves : ∃ (W : Type) (ω : Prog.World CallAns W) (D : Device) (fuel : Nat)
    (past : List (W → W)) (w : W) (p : Csma.Task Empty) (x : Shared W × List (Ev CallAns)),
    Sane D ∧
    (runDevice D).run (deviceWorld ω).record (fuel + 1) (past.map nextPoll)
      ({ base := w }, []) = (.pending p, x) ∧ WantsRadio p ∧
    ∀ future : List (W → W),
      let y := p.run (deviceWorld ω).record (fuel + 1) (future.map nextPoll) x
      (∃ p', y.1 = .pending p' ∧ WantsRadio p' ∧ busy p' = false) ∧
      ∃ t, y.2.2 = x.2 ++ t ∧ t.any gotRadio = false := by
  obtain ⟨h1, h2, h3⟩ := afterPast_state
  obtain ⟨p, x, hp⟩ := pending_of_waits (y := afterPast false) (e := (Tid.tx, Op.sendSignal))
    (by rw [h1]; simp)
  rw [hp] at h1 h2 h3
  simp only [waitsOf] at h1 h2 h3
  have hw : WantsRadio p := by rw [WantsRadio, h1]; simp
  have hy : (Tid.rx, Op.yieldNow) ∈ p.waits := by rw [h1]; simp
  have hrun : (runDevice exampleDevice).run (deviceWorld (noisy false)).record (2 + 1)
      (noisyPast.map nextPoll) ({ base := false }, []) = (.pending p, x) := by
    rw [afterPast] at hp
    exact hp
  refine ⟨Bool, noisy false, exampleDevice, 2, noisyPast, false, p, x, exampleDevice_sane, hrun, hw, ?_⟩
  have hr : Reached (noisy false) exampleDevice (2 + 1) p x := ⟨_, _, hrun⟩
  have hsound := (hr.inv (noisy false)).2
  obtain ⟨T, q, m, rfl, hT, hq, hm, hl⟩ := hr.phase (noisy false) hw
  obtain ⟨s, rfl, hs⟩ : ∃ s, q = yieldW exampleDevice s ∧ s.held = true := by
    have key : ∀ s, q = yieldW exampleDevice s → s.held = true := by
      rintro s rfl
      cases hs : s.held with
      | true => rfl
      | false =>
        have := hr.unlocked (noisy false) hT (yieldW_exec exampleDevice s hs) (fun _ => rfl)
        rw [h2] at this
        cases this
    cases hq with
    | yield s => exact ⟨s, rfl, key s rfl⟩
    | lock s => exact absurd ⟨s, rfl⟩ hl
    | listen s =>
      exfalso
      generalize hq' : listenW exampleDevice s = q' at hm
      have hwq : (listenW exampleDevice s).waits = q'.waits := by rw [hq']
      cases hm with
      | gone => simp [listenW, yieldW, Prog.waits] at hwq
      | next => simp [listenW, yieldW, Prog.waits] at hwq
      | handle h =>
        have := h.1.mem_waits (Tid.rx, Op.recvSignal) (by rw [← hwq]; simp [listenW, Prog.waits])
        cases this
      | lock => simp [listenW, lockW, Prog.waits] at hwq
    | handle h =>
      exfalso
      simp only [devRun, rxCtx, Prog.waits, List.mem_append] at hy
      rcases hy with hy | hy
      · rw [hT.waits_eq] at hy
        simp at hy
      · have := h.1.mem_waits _ hy
        cases this
  intro future
  have run : ∀ (future : List (Bool → Bool)) (s : RxState) (x : Shared Bool × List (Ev CallAns)),
      s.held = true → Full x.1 →
      (∃ p', ((devRun T (rxCtx exampleDevice (yieldW exampleDevice s))).run
          (recorded (noisy false)) 3 (future.map nextPoll) x).1 = .pending p' ∧ WantsRadio p' ∧
        busy p' = false) ∧
      ∃ t, ((devRun T (rxCtx exampleDevice (yieldW exampleDevice s))).run
          (recorded (noisy false)) 3 (future.map nextPoll) x).2.2 = x.2 ++ t ∧
        t.any gotRadio = false := by
    intro future
    induction future with
    | nil =>
      intro s x hs hf
      refine ⟨⟨_, rfl, (devRun_wants (.yield s)).2 (wantsRadio_of_ctx hT), ?_⟩, [], by simp [Prog.run], rfl⟩
      have hTb : T.waits.any handling = false := by
        rw [hT.waits_eq]
        rfl
      simp [busy, devRun, rxCtx, yieldW, Prog.waits, hTb, handling]
    | cons env future ih =>
      intro s x hs hf
      obtain ⟨s', hs', x', e, hf', t, ht, hg⟩ := noise_step hT hs (x := nextPoll env x) hf 2
      obtain ⟨h1, t', ht', hg'⟩ := ih s' x' hs' hf'
      have erun : (devRun T (rxCtx exampleDevice (yieldW exampleDevice s))).run
          (recorded (noisy false)) 3 ((env :: future).map nextPoll) x =
          (devRun T (rxCtx exampleDevice (yieldW exampleDevice s'))).run (recorded (noisy false)) 3
            (future.map nextPoll) x' := by
        simp only [List.map_cons, Prog.run, e]
      rw [erun]
      refine ⟨h1, t ++ t', ?_, by rw [List.any_append, hg, hg']; rfl⟩
      rw [ht', ht, List.append_assoc]
      rfl
  exact run future s x hs ⟨h3, hsound h3⟩

end Dot15d4.Props
