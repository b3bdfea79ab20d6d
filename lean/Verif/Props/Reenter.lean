import Verif.Model.Reenter

/-!
# C76: wakers that act at once

The specification is sequential: the calls are made one after the other, each running to its end as
in Model/Sync, whose behaviour C35-C38 give.
-/

namespace Dot15d4.Props
open Out Sync Reenter

/-! ## The specification -/

/-- One call that runs to its end before anything else happens. -/
def alone {W α : Type} (willWake : W → W → Bool) (c : Channel W α) :
    ChanOp W α → Out (ChanRes α × Channel W α)
  | .send m => do
    let r ← c.send m
    .ok (.replaced r.replaced, r.chan)
  | .sendAsync cx m => do
    let r ← c.sendAsyncPoll willWake cx m
    match r.1 with
    | .pending => .ok (.pending, r.2.2)
    | .ready _ => .ok (.sent, r.2.2)
  | .receive cx => do
    let r ← c.receivePoll cx
    match r.1 with
    | .pending => .ok (.pending, r.2.2)
    | .ready v => .ok (.received v, r.2.2)

/-- The calls of a history one after the other, in the order in which they were made. -/
def sequential {W α : Type} (willWake : W → W → Bool) (c : Channel W α) :
    List (ChanOp W α) → Out (Channel W α × List (ChanOp W α × ChanRes α))
  | [] => .ok (c, [])
  | op :: ops => do
    let r ← alone willWake c op
    let s ← sequential willWake r.2 ops
    .ok (s.1, (op, r.1) :: s.2)

/-- The calls made, wherever they were made. -/
def callsOf {W α : Type} : List (ChanMove W α) → List (ChanOp W α)
  | [] => []
  | .call op :: ms => op :: callsOf ms
  | .back :: ms => callsOf ms

/-- All polls of `send_async` are of one task. -/
def OneSender {W α : Type} (willWake : W → W → Bool) (moves : List (ChanMove W α)) : Prop :=
  ∀ a m b n, .call (.sendAsync a m) ∈ moves → .call (.sendAsync b n) ∈ moves →
    willWake a b = true

/-- The full claim of C76 for the channel. -/
def C76_channel_statement : Prop := ∀ (W α : Type) (willWake : W → W → Bool)
    (moves : List (ChanMove W α)),
    ∃ s, runChan willWake ⟨Channel.new, [], []⟩ moves = .ok s ∧
      sequential willWake Channel.new (callsOf moves) = .ok (s.chan, s.log)

/-- One call on a mutex that runs to its end before anything else happens. -/
def aloneMutex {W V : Type} (willWake : W → W → Bool) (m : Mutex W V) :
    MutexOp W → MutexRes × Mutex W V
  | .tryLock => (some m.tryLock.1, m.tryLock.2)
  | .lockPoll cx =>
    match m.lockPoll willWake cx with
    | (.pending, _, m) => (some false, m)
    | (.ready _, _, m) => (some true, m)
  | .guardDrop => (none, m.guardDrop.2)

/-- The calls of a history on a mutex one after the other. -/
def sequentialMutex {W V : Type} (willWake : W → W → Bool) (m : Mutex W V) :
    List (MutexOp W) → Mutex W V × List (MutexOp W × MutexRes)
  | [] => (m, [])
  | op :: ops =>
    let r := aloneMutex willWake m op
    let s := sequentialMutex willWake r.2 ops
    (s.1, (op, r.1) :: s.2)

/-- The calls made, wherever they were made. -/
def mutexCallsOf {W : Type} : List (MutexMove W) → List (MutexOp W)
  | [] => []
  | .call op :: ms => op :: mutexCallsOf ms
  | .back :: ms => mutexCallsOf ms

/-- The full claim of C76 for the mutex: no panic. -/
def C76_mutex_statement : Prop := ∀ (W V : Type) (willWake : W → W → Bool) (v : V)
    (moves : List (MutexMove W)),
    Returns (runMutex willWake ⟨Mutex.new v, none, []⟩ moves)

/-! ## The channel -/

/-- What holds between any two moves: the slot is full exactly if the channel is ready, no receiver
is registered then, the registered sender is one of the task's wakers, and no call has anything left
to do. -/
structure ChanSafe {W α : Type} (mine : W → Prop) (s : ChanConf W α) : Prop where
  slot : s.chan.isReady = s.chan.message.isSome
  recv : s.chan.isReady = true → s.chan.wakerRecv = none
  send : ∀ w, s.chan.wakerSend = some w → mine w
  rest : ∀ k ∈ s.stack, k = .ret

theorem call_alone {W α : Type} (willWake : W → W → Bool) (mine : W → Prop)
    (hm : ∀ a b, mine a → mine b → willWake a b = true) (s : ChanConf W α) (hs : ChanSafe mine s)
    (op : ChanOp W α) (hop : ∀ cx m, op = .sendAsync cx m → mine cx) :
    ∃ r c s', alone willWake s.chan op = .ok (r, c) ∧
      stepChan willWake s (.call op) = .ok s' ∧ s'.chan = c ∧ s'.log = s.log ++ [(op, r)] ∧
      ChanSafe mine s' := by
  obtain ⟨⟨msg, ready, wr, ws⟩, stack, log⟩ := s
  obtain ⟨h1, h2, h3, h4⟩ := hs
  simp only at h1 h2 h3 h4
  cases ready with
  | false =>
    have hmsg : msg = none := by cases msg <;> simp at h1 ⊢
    subst hmsg
    cases op with
    | send m =>
      cases wr with
      | none => exact ⟨_, _, _, rfl, rfl, rfl, rfl, rfl, by simp [sendTail], h3, by simpa [sendTail] using h4⟩
      | some w =>
        exact ⟨_, _, _, rfl, rfl, rfl, rfl, rfl, by simp [sendTail], h3, by simpa [sendTail] using h4⟩
    | sendAsync cx m =>
      cases wr with
      | none => exact ⟨_, _, _, rfl, rfl, rfl, rfl, rfl, by simp [sendTail], h3, by simpa [sendTail] using h4⟩
      | some w =>
        exact ⟨_, _, _, rfl, rfl, rfl, rfl, rfl, by simp [sendTail], h3, by simpa [sendTail] using h4⟩
    | receive cx =>
      exact ⟨_, _, _, rfl, rfl, rfl, rfl, rfl, by simp, h3, by simpa using h4⟩
  | true =>
    have hwr : wr = none := h2 rfl
    subst hwr
    obtain ⟨v, rfl⟩ : ∃ v, msg = some v := by cases msg <;> simp at h1 ⊢
    cases op with
    | send m => exact ⟨_, _, _, rfl, rfl, rfl, rfl, rfl, by simp [sendTail], h3, by simpa [sendTail] using h4⟩
    | sendAsync cx m =>
      have hcx := hop cx m rfl
      cases ws with
      | none =>
        refine ⟨_, _, _, rfl, rfl, rfl, rfl, rfl, by simp, ?_, by simpa using h4⟩
        rintro w ⟨⟩; exact hcx
      | some w =>
        have hw : willWake cx w = true := hm cx w hcx (h3 w rfl)
        refine ⟨.pending, ⟨some v, true, none, some cx⟩,
          ⟨⟨some v, true, none, some cx⟩, stack, log ++ [(.sendAsync cx m, .pending)]⟩, ?_, ?_, rfl, rfl,
          rfl, by simp, ?_, by simpa using h4⟩
        · simp [alone, Channel.sendAsyncPoll, Channel.hasItem, hw]
        · simp [stepChan, startChan, hw]
        · rintro w ⟨⟩; exact hcx
    | receive cx =>
      cases ws with
      | none => exact ⟨_, _, _, rfl, rfl, rfl, rfl, rfl, by simp, by simp, by simpa using h4⟩
      | some w => exact ⟨_, _, _, rfl, rfl, rfl, rfl, rfl, by simp, by simp, by simpa using h4⟩

theorem back_safe {W α : Type} (willWake : W → W → Bool) (mine : W → Prop) (s : ChanConf W α)
    (hs : ChanSafe mine s) :
    ∃ s', stepChan willWake s .back = .ok s' ∧ s'.chan = s.chan ∧ s'.log = s.log ∧
      ChanSafe mine s' := by
  obtain ⟨c, stack, log⟩ := s
  obtain ⟨h1, h2, h3, h4⟩ := hs
  cases stack with
  | nil => exact ⟨_, rfl, rfl, rfl, h1, h2, h3, by simp⟩
  | cons k st =>
    have : k = .ret := h4 k (by simp)
    subst this
    exact ⟨_, rfl, rfl, rfl, h1, h2, h3, fun k hk => h4 k (by simp [hk])⟩

theorem run_alone {W α : Type} (willWake : W → W → Bool) (mine : W → Prop)
    (hm : ∀ a b, mine a → mine b → willWake a b = true) : ∀ (moves : List (ChanMove W α))
    (s : ChanConf W α), ChanSafe mine s → (∀ cx m, .call (.sendAsync cx m) ∈ moves → mine cx) →
    ∃ s' l, runChan willWake s moves = .ok s' ∧
      sequential willWake s.chan (callsOf moves) = .ok (s'.chan, l) ∧ s'.log = s.log ++ l
  | [], s, _, _ => ⟨s, [], rfl, rfl, by simp⟩
  | .call op :: ms, s, hs, hc => by
    obtain ⟨r, c, s1, e1, e2, e3, e4, e5⟩ := call_alone willWake mine hm s hs op (by
      rintro cx m rfl; exact hc cx m (by simp))
    obtain ⟨s', l, f1, f2, f3⟩ := run_alone willWake mine hm ms s1 e5
      (fun cx m h => hc cx m (by simp [h]))
    refine ⟨s', (op, r) :: l, by rw [runChan, e2, bind_ok, f1], ?_, by rw [f3, e4]; simp⟩
    rw [callsOf, sequential, e1, bind_ok]
    subst e3
    rw [f2, bind_ok]
  | .back :: ms, s, hs, hc => by
    obtain ⟨s1, e2, e3, e4, e5⟩ := back_safe willWake mine s hs
    obtain ⟨s', l, f1, f2, f3⟩ := run_alone willWake mine hm ms s1 e5
      (fun cx m h => hc cx m (by simp [h]))
    exact ⟨s', l, by rw [runChan, e2, bind_ok, f1], by rw [callsOf, ← e3, f2], by rw [f3, e4]⟩

/-- **C76**, channel.  Whatever is done with a channel from inside the wakers it calls, however
deeply nested, every call returns what it would have returned, and leaves what it would have left,
had the calls been made one after the other; no uninitialised message is read or dropped.  Missing:
several tasks waiting in `send_async` (`C76_two_senders`). -/
theorem C76_channel_partial {W α : Type} (willWake : W → W → Bool) (moves : List (ChanMove W α))
    (h : OneSender willWake moves) :
    ∃ s, runChan willWake ⟨Channel.new, [], []⟩ moves = .ok s ∧
      sequential willWake Channel.new (callsOf moves) = .ok (s.chan, s.log) := by
  obtain ⟨s, l, h1, h2, h3⟩ := run_alone willWake
    (fun w => ∃ m, .call (.sendAsync w m) ∈ moves)
    (fun a b ⟨m, ha⟩ ⟨n, hb⟩ => h a m b n ha hb) moves ⟨Channel.new, [], []⟩
    ⟨rfl, by simp [Channel.new], by simp [Channel.new], by simp⟩ (fun cx m hx => ⟨m, hx⟩)
  rw [List.nil_append] at h3
  exact ⟨s, h1, by rw [h3]; exact h2⟩

/-- A receiver (waker 1) that takes the message from inside `send`, and a sender (waker 2) that sends
the next one from inside that `receive`, which the receiver takes in turn from inside that `send`. -/
def nestedHistory : List (ChanMove Nat Nat) :=
  [.call (.receive 1), .call (.send 10), .call (.receive 1), .back, .call (.send 11),
    .call (.sendAsync 2 12), .call (.receive 1), .call (.sendAsync 2 12), .call (.receive 1), .back]

example : OneSender (· == ·) nestedHistory := by
  intro a m b n ha hb
  simp [nestedHistory] at ha hb
  rw [ha.1, hb.1]; rfl

example : (runChan (· == ·) ⟨Channel.new, [], []⟩ nestedHistory).bind (fun s => .ok (s.log.map (·.2))) =
    .ok [.pending, .replaced false, .received 10, .replaced false, .pending, .received 11, .sent,
      .received 12] := by decide

/-- With two sending tasks: task 2 polls while task 1 is registered, so task 1 is woken; it polls at
once and is registered; then task 2 overwrites the registration.  Task 1 waits, is not registered,
and has not been woken since its last poll; one after the other, task 2 would have been woken and
task 1 registered. -/
def twoSenders : List (ChanMove Nat Nat) :=
  [.call (.send 10), .call (.sendAsync 1 11), .call (.sendAsync 2 12), .call (.sendAsync 1 11), .back]

theorem C76_two_senders :
    runChan (· == ·) ⟨Channel.new, [], []⟩ twoSenders =
      .ok ⟨⟨some 10, true, none, some 2⟩, [], [(.send 10, .replaced false), (.sendAsync 1 11, .pending),
        (.sendAsync 2 12, .pending), (.sendAsync 1 11, .pending)]⟩ ∧
    sequential (· == ·) Channel.new (callsOf twoSenders) =
      .ok (⟨some 10, true, none, some 1⟩, [(.send 10, .replaced false), (.sendAsync 1 11, .pending),
        (.sendAsync 2 12, .pending), (.sendAsync 1 11, .pending)]) := ⟨rfl, rfl⟩

/-- C76 in full is false of the channel. -/
theorem C76_channel_false : ¬ C76_channel_statement := by
  intro h
  obtain ⟨s, h1, h2⟩ := h Nat Nat (· == ·) twoSenders
  rw [C76_two_senders.1] at h1
  simp only [ok.injEq] at h1
  subst h1
  rw [C76_two_senders.2] at h2
  simp at h2

/-! ## The mutex -/

theorem step_mutex_alone {W V : Type} (willWake : W → W → Bool) (m : Mutex W V) (op : MutexOp W) :
    (startMutex willWake m op).1 = (aloneMutex willWake m op).1 ∧
    (match (startMutex willWake m op).2.2 with
      | some (some cx) => { (startMutex willWake m op).2.1 with waker := some cx }
      | _ => (startMutex willWake m op).2.1) = (aloneMutex willWake m op).2 := by
  obtain ⟨v, locked, w⟩ := m
  cases op with
  | tryLock => exact ⟨rfl, rfl⟩
  | lockPoll cx =>
    cases locked with
    | false => exact ⟨rfl, rfl⟩
    | true =>
      cases w with
      | none => exact ⟨rfl, rfl⟩
      | some w =>
        simp only [startMutex, aloneMutex, Mutex.lockPoll, replaceWaker, if_true]
        cases willWake w cx <;> exact ⟨rfl, rfl⟩
  | guardDrop => cases w <;> exact ⟨rfl, rfl⟩

/-- What the mutex will be when the `wake()` in progress has returned. -/
def settled {W V : Type} (s : MutexConf W V) : Mutex W V :=
  match s.inWake with
  | some (some cx) => { s.mutex with waker := some cx }
  | _ => s.mutex

theorem run_mutex {W V : Type} (willWake : W → W → Bool) : ∀ (moves : List (MutexMove W))
    (s s' : MutexConf W V), runMutex willWake s moves = .ok s' →
    (sequentialMutex willWake (settled s) (mutexCallsOf moves)).1 = settled s' ∧
    s'.log = s.log ++ (sequentialMutex willWake (settled s) (mutexCallsOf moves)).2
  | [], s, s', h => by
    simp only [runMutex, ok.injEq] at h
    subst h
    simp [mutexCallsOf, sequentialMutex]
  | .call op :: ms, s, s', h => by
    rw [runMutex, stepMutex] at h
    cases hw : s.inWake with
    | some k => simp [hw] at h
    | none =>
      simp only [hw, Option.isSome_none, Bool.false_eq_true, if_false, bind_ok] at h
      obtain ⟨e1, e2⟩ := step_mutex_alone willWake s.mutex op
      have h' := run_mutex willWake ms _ _ h
      have hs : settled s = s.mutex := by simp [settled, hw]
      have hs' : settled (⟨(startMutex willWake s.mutex op).2.1, (startMutex willWake s.mutex op).2.2,
          s.log ++ [(op, (startMutex willWake s.mutex op).1)]⟩ : MutexConf W V) =
          (aloneMutex willWake s.mutex op).2 := by
        rw [← e2]; simp only [settled]
      rw [hs'] at h'
      simp only [mutexCallsOf, sequentialMutex, hs]
      refine ⟨h'.1, ?_⟩
      rw [h'.2, e1]
      simp
  | .back :: ms, s, s', h => by
    rw [runMutex, stepMutex] at h
    obtain ⟨m, k, log⟩ := s
    match k, h with
    | none, h => exact run_mutex willWake ms ⟨m, none, log⟩ s' h
    | some none, h => exact run_mutex willWake ms ⟨m, none, log⟩ s' h
    | some (some cx), h => exact run_mutex willWake ms ⟨{ m with waker := some cx }, none, log⟩ s' h

/-- **C76**, mutex: as long as nobody uses the mutex from inside a waker it calls, the calls are
those of the sequential mutex (C35, C36). -/
theorem C76_mutex_partial {W V : Type} (willWake : W → W → Bool) (v : V)
    (moves : List (MutexMove W)) (s : MutexConf W V)
    (h : runMutex willWake ⟨Mutex.new v, none, []⟩ moves = .ok s) (hw : s.inWake = none) :
    sequentialMutex willWake (Mutex.new v) (mutexCallsOf moves) = (s.mutex, s.log) := by
  obtain ⟨h1, h2⟩ := run_mutex willWake moves _ _ h
  have e1 : settled (⟨Mutex.new v, none, []⟩ : MutexConf W V) = Mutex.new v := rfl
  have e2 : settled s = s.mutex := by simp [settled, hw]
  rw [e1] at h1 h2
  rw [e2] at h1
  rw [List.nil_append] at h2
  exact Prod.ext h1 h2.symm

theorem run_mutex_append {W V : Type} (willWake : W → W → Bool) : ∀ (a b : List (MutexMove W))
    (s : MutexConf W V), runMutex willWake s (a ++ b) =
      (runMutex willWake s a >>= fun s => runMutex willWake s b)
  | [], b, s => rfl
  | m :: a, b, s => by
    rw [List.cons_append, runMutex, runMutex]
    cases stepMutex willWake s m with
    | ok s1 => rw [bind_ok, bind_ok, run_mutex_append willWake a b s1]
    | err => rfl
    | panic => rfl

/-- **C76**, mutex, exactly: there is a panic (`RefCell` already borrowed) if and only if somebody
uses the mutex from inside a waker it calls. -/
theorem C76_mutex_panics_iff {W V : Type} (willWake : W → W → Bool) (v : V)
    (moves : List (MutexMove W)) :
    runMutex willWake ⟨Mutex.new v, none, []⟩ moves = .panic ↔
      ∃ before op after s, moves = before ++ .call op :: after ∧
        runMutex willWake ⟨Mutex.new v, none, []⟩ before = .ok s ∧ s.inWake ≠ none := by
  generalize (⟨Mutex.new v, none, []⟩ : MutexConf W V) = s0
  constructor
  · intro h
    induction moves generalizing s0 with
    | nil => cases h
    | cons m ms ih =>
      rw [runMutex] at h
      cases hs : stepMutex willWake s0 m with
      | ok s1 =>
        rw [hs, bind_ok] at h
        obtain ⟨b, op, a, s, rfl, h1, h2⟩ := ih s1 h
        exact ⟨m :: b, op, a, s, rfl, by rw [runMutex, hs, bind_ok, h1], h2⟩
      | err =>
        cases m with
        | call op => simp only [stepMutex] at hs; split at hs <;> cases hs
        | back => simp only [stepMutex] at hs; split at hs <;> cases hs
      | panic =>
        cases m with
        | call op =>
          refine ⟨[], op, ms, s0, rfl, rfl, fun hn => ?_⟩
          simp [stepMutex, hn] at hs
        | back => simp only [stepMutex] at hs; split at hs <;> cases hs
  · rintro ⟨b, op, a, s, rfl, h1, h2⟩
    rw [run_mutex_append, h1, bind_ok, runMutex, stepMutex]
    cases hk : s.inWake with
    | none => exact absurd hk h2
    | some k => simp

/-- Task 1 holds the lock, task 2 waits; when task 1 drops its guard, task 2 is woken and polls at
once. -/
def wokenAtOnce : List (MutexMove Nat) :=
  [.call (.lockPoll 1), .call (.lockPoll 2), .call .guardDrop, .call (.lockPoll 2)]

/-- C76 in full is false of the mutex. -/
theorem C76_mutex_false : ¬ C76_mutex_statement := by
  intro h
  exact h Nat Nat (· == ·) 0 wokenAtOnce rfl

/-- If task 2 polls after `wake()` has returned it gets the lock. -/
example : ∃ s, runMutex (· == ·) (⟨Mutex.new 0, none, []⟩ : MutexConf Nat Nat)
      [.call (.lockPoll 1), .call (.lockPoll 2), .call .guardDrop, .back, .call (.lockPoll 2)] =
      .ok s ∧ s.inWake = none ∧ s.mutex = ⟨0, true, none⟩ ∧
      s.log.map (·.2) = [some true, some false, none, some true] :=
  ⟨_, rfl, rfl, rfl, rfl⟩

end Dot15d4.Props
