import Verif.Props.Mutex
import Mathlib.Data.List.Perm.Basic

/-!
# C37, C38: the channel
-/

namespace Dot15d4.Sync

variable {W T α : Type} [DecidableEq T]

theorem chan_run_induct (k : Wakers W T) (P : ChanSys W T α → Prop) (Q : ChanAction W α → Prop)
    (hstep : ∀ s a s', P s → Q a → s.step k a = .ok (some s') → P s') :
    ∀ (acts : List (ChanAction W α)) (s s' : ChanSys W T α),
      P s → (∀ a ∈ acts, Q a) → s.run k acts = .ok (some s') → P s'
  | [], s, s', hs, _, h => by simp [ChanSys.run] at h; exact h ▸ hs
  | a :: as, s, s', hs, hq, h => by
    simp only [ChanSys.run] at h
    cases h1 : s.step k a with
    | err => rw [h1] at h; cases h
    | panic => rw [h1] at h; cases h
    | ok o =>
      rw [h1] at h
      cases o with
      | none => cases h
      | some s1 =>
        exact chan_run_induct k P Q hstep as s1 s'
          (hstep _ _ _ hs (hq a (by simp)) h1) (fun b hb => hq b (by simp [hb])) h

/-- The slot is initialised exactly when the channel is ready, and history and slot are those of a
one-place buffer. -/
def ChanInv (s : ChanSys W T α) : Prop :=
  (s.chan.isReady = true ↔ s.chan.message.isSome) ∧ OnePlace s.log s.chan.message

theorem chanInv_step (k : Wakers W T) (s : ChanSys W T α) (a : ChanAction W α)
    (hs : ChanInv s) : ∃ o, s.step k a = .ok o ∧ ∀ s', o = some s' → ChanInv s' := by
  obtain ⟨hr, hl⟩ := hs
  cases hm : s.chan.message with
  | none =>
    have hready : s.chan.isReady = false := by
      cases h : s.chan.isReady
      · rfl
      · rw [hm] at hr; simp [h] at hr
    rw [hm] at hl
    cases a with
    | send m =>
      refine ⟨_, by simp [ChanSys.step, Channel.send, hready]; rfl, ?_⟩
      rintro s' ⟨⟩
      exact ⟨by simp [ChanSys.wake], by simpa [ChanSys.wake] using hl.send⟩
    | pollSend f cx m =>
      simp only [ChanSys.step]
      split
      · refine ⟨_, by simp [Channel.sendAsyncPoll, Channel.hasItem, Channel.send, hready]; rfl, ?_⟩
        rintro s' ⟨⟩
        exact ⟨by simp [ChanSys.wake], by simpa [ChanSys.wake] using hl.sendAsync⟩
      · exact ⟨none, rfl, by simp⟩
    | dropSend f =>
      refine ⟨_, rfl, ?_⟩
      intro s' h
      split at h <;> cases h
      exact ⟨hr, by simpa [hm] using hl⟩
    | pollRecv f cx =>
      simp only [ChanSys.step]
      split
      · refine ⟨_, by simp [Channel.receivePoll, hready]; rfl, ?_⟩
        rintro s' ⟨⟩
        exact ⟨by simpa [ChanSys.wake, hready] using hm, by simpa [ChanSys.wake, hm] using hl⟩
      · exact ⟨none, rfl, by simp⟩
    | dropRecv f =>
      refine ⟨_, rfl, ?_⟩
      intro s' h
      split at h <;> cases h
      exact ⟨hr, by simpa [hm] using hl⟩
  | some v =>
    have hready : s.chan.isReady = true := by rw [hr, hm]; rfl
    rw [hm] at hl
    cases a with
    | send m =>
      refine ⟨_, by simp [ChanSys.step, Channel.send, hready, hm]; rfl, ?_⟩
      rintro s' ⟨⟩
      exact ⟨by simp [ChanSys.wake], by simpa [ChanSys.wake] using hl.replace⟩
    | pollSend f cx m =>
      simp only [ChanSys.step]
      split
      · simp only [Channel.sendAsyncPoll, Channel.hasItem, hready, if_true]
        cases hw : s.chan.wakerSend with
        | none =>
          refine ⟨_, rfl, ?_⟩
          rintro s' ⟨⟩
          exact ⟨by simp [ChanSys.wake, hm, hready], by simpa [ChanSys.wake, hm] using hl⟩
        | some w =>
          by_cases hww : k.willWake cx w = true
          · simp only [hww, if_true]
            refine ⟨_, rfl, ?_⟩
            rintro s' ⟨⟩
            exact ⟨by simp [ChanSys.wake, hm, hready], by simpa [ChanSys.wake, hm] using hl⟩
          · simp only [hww, if_false, Bool.false_eq_true]
            refine ⟨_, rfl, ?_⟩
            rintro s' ⟨⟩
            exact ⟨by simp [ChanSys.wake, hm, hready], by simpa [ChanSys.wake, hm] using hl⟩
      · exact ⟨none, rfl, by simp⟩
    | dropSend f =>
      refine ⟨_, rfl, ?_⟩
      intro s' h
      split at h <;> cases h
      exact ⟨hr, by simpa [hm] using hl⟩
    | pollRecv f cx =>
      simp only [ChanSys.step]
      split
      · refine ⟨_, by simp [Channel.receivePoll, hready, hm]; rfl, ?_⟩
        rintro s' ⟨⟩
        exact ⟨by simp [ChanSys.wake], by simpa [ChanSys.wake] using hl.receive⟩
      · exact ⟨none, rfl, by simp⟩
    | dropRecv f =>
      refine ⟨_, rfl, ?_⟩
      intro s' h
      split at h <;> cases h
      exact ⟨hr, by simpa [hm] using hl⟩

theorem chanInv_reachable (k : Wakers W T) (acts : List (ChanAction W α)) (s : ChanSys W T α)
    (h : ChanSys.start.run k acts = .ok (some s)) : ChanInv s := by
  refine chan_run_induct k ChanInv (fun _ => True) ?_ acts _ s ⟨by simp [ChanSys.start, Channel.new],
    .empty⟩ (by simp) h
  intro s a s' hs _ h
  obtain ⟨o, ho, hinv⟩ := chanInv_step k s a hs
  rw [ho] at h
  cases h
  exact hinv s' rfl

theorem chan_run_safe (k : Wakers W T) :
    ∀ (acts : List (ChanAction W α)) (s : ChanSys W T α), ChanInv s →
      ∃ o, s.run k acts = .ok o
  | [], s, _ => ⟨some s, rfl⟩
  | a :: as, s, hs => by
    obtain ⟨o, ho, hinv⟩ := chanInv_step k s a hs
    simp only [ChanSys.run, ho]
    cases o with
    | none => exact ⟨none, rfl⟩
    | some s1 => exact chan_run_safe k as s1 (hinv s1 rfl)

/-- **C37.** No history of sends, polls and future drops reads or drops uninitialised memory. -/
theorem C37_memory_safe (k : Wakers W T) (acts : List (ChanAction W α)) :
    ∃ o, (ChanSys.start : ChanSys W T α).run k acts = .ok o :=
  chan_run_safe k acts _ ⟨by simp [ChanSys.start, Channel.new], .empty⟩

/-- **C37.** Every history of the channel is a history of a one-place buffer: `send` answers `true`
exactly when it destroyed a value that was not received, `send_async` completes only into an empty
channel, `receive` returns the value last sent and removes it. -/
theorem C37_one_place_buffer (k : Wakers W T) (acts : List (ChanAction W α)) (s : ChanSys W T α)
    (h : ChanSys.start.run k acts = .ok (some s)) :
    ∃ b, OnePlace s.log b ∧ (s.chan.hasItem = true ↔ b.isSome) :=
  ⟨_, (chanInv_reachable k acts s h).2, (chanInv_reachable k acts s h).1⟩

theorem onePlace_sublist {l : List (ChanEvent α)} {b : Option α} (h : OnePlace l b) :
    (receivedValues l ++ b.toList).Sublist (sentValues l) := by
  induction h with
  | empty => simp [receivedValues, sentValues]
  | send h ih => simpa [receivedValues, sentValues] using ih
  | @replace l old m h ih =>
    have : (receivedValues l).Sublist (sentValues l) := (List.sublist_append_left _ _).trans ih
    simpa [receivedValues, sentValues] using this
  | sendAsync h ih => simpa [receivedValues, sentValues] using ih
  | receive h ih => simpa [receivedValues, sentValues] using ih

/-- **C37.** The values received, in the order of reception, are a subsequence of the values sent,
in the order of sending; hence nothing is received twice, made up, or reordered. -/
theorem C37_received_subsequence (k : Wakers W T) (acts : List (ChanAction W α))
    (s : ChanSys W T α) (h : ChanSys.start.run k acts = .ok (some s)) :
    (receivedValues s.log).Sublist (sentValues s.log) :=
  (List.sublist_append_left _ _).trans (onePlace_sublist (chanInv_reachable k acts s h).2)

theorem onePlace_perm {l : List (ChanEvent α)} {b : Option α} (h : OnePlace l b) :
    (sentValues l).Perm (receivedValues l ++ droppedValues l ++ b.toList) ∧
    (droppedValues l).length = replacements l := by
  induction h with
  | empty => simp [receivedValues, sentValues, droppedValues, replacements]
  | @send l m h ih =>
    obtain ⟨ih, hc⟩ := ih
    refine ⟨?_, by simpa [droppedValues, replacements] using hc⟩
    simp only [receivedValues, sentValues, droppedValues, List.filterMap_append] at *
    simpa using ih.append_right [m]
  | @replace l old m h ih =>
    obtain ⟨ih, hc⟩ := ih
    refine ⟨?_, by simpa [droppedValues, replacements] using hc⟩
    simp only [receivedValues, sentValues, droppedValues, List.filterMap_append] at *
    simpa using ih.append_right [m]
  | @sendAsync l m h ih =>
    obtain ⟨ih, hc⟩ := ih
    refine ⟨?_, by simpa [droppedValues, replacements] using hc⟩
    simp only [receivedValues, sentValues, droppedValues, List.filterMap_append] at *
    simpa using ih.append_right [m]
  | @receive l m h ih =>
    obtain ⟨ih, hc⟩ := ih
    refine ⟨?_, by simpa [droppedValues, replacements] using hc⟩
    simp only [receivedValues, sentValues, droppedValues, List.filterMap_append] at *
    have h1 : ∀ a b : List α, (a ++ b ++ [m]).Perm (a ++ [m] ++ b ++ []) := fun a b => by
      simpa using (List.perm_append_comm (l₁ := b) (l₂ := [m])).append_left a
    simpa using ih.trans (h1 _ _)

/-- **C37.** Every value sent is received, destroyed, or still pending (at most one), once; and
exactly as many are destroyed as sends answered `true`. -/
theorem C37_nothing_lost_silently (k : Wakers W T) (acts : List (ChanAction W α))
    (s : ChanSys W T α) (h : ChanSys.start.run k acts = .ok (some s)) :
    ∃ pending : Option α,
      (sentValues s.log).Perm (receivedValues s.log ++ droppedValues s.log ++ pending.toList) ∧
      (pending.isSome ↔ s.chan.hasItem = true) ∧
      (droppedValues s.log).length = replacements s.log :=
  ⟨_, (onePlace_perm (chanInv_reachable k acts s h).2).1, (chanInv_reachable k acts s h).1.symm,
    (onePlace_perm (chanInv_reachable k acts s h).2).2⟩

/-! ### Wakeups -/

/-- No pending future is forgotten: it was woken since it returned `Pending`, or what it waits for
has not happened and the channel keeps a waker of its task.  The part about receivers is claimed
only for a single receiving task `t0` (`o = some t0`). -/
def ChanWakeInv (k : Wakers W T) (o : Option T) (s : ChanSys W T α) : Prop :=
  (∀ f t b m, s.sends f = .waiting t b m →
    b = true ∨ (s.chan.isReady = true ∧ ∃ w, s.chan.wakerSend = some w ∧ k.task w = t)) ∧
  (∀ t0, o = some t0 → ∀ f t b, s.recvs f = .waiting t b () →
    t = t0 ∧
    (b = true ∨ (s.chan.isReady = false ∧ ∃ w, s.chan.wakerRecv = some w ∧ k.task w = t)))

/-- The action is not a poll of a receiving future by a task other than `t0` (when `o = some t0`). -/
def ReceiverTask (k : Wakers W T) (o : Option T) (a : ChanAction W α) : Prop :=
  ∀ t0, o = some t0 → ∀ f cx, a = .pollRecv f cx → k.task cx = t0

theorem send_result (c : Channel W α) (m : α) (r : SendResult W α) (h : c.send m = .ok r) :
    r.woken = c.wakerRecv.toList ∧ r.chan.isReady = true ∧ r.chan.wakerSend = c.wakerSend ∧
    r.chan.wakerRecv = none := by
  simp only [Channel.send] at h
  split at h
  · cases hm : c.message with
    | none => rw [hm] at h; cases h
    | some v => rw [hm] at h; cases h; simp
  · cases h; simp

/-- After a send that wakes every stored receiver, both parts of the invariant hold. -/
theorem chanWake_send (k : Wakers W T) (o : Option T) (s : ChanSys W T α) (hs : ChanWakeInv k o s)
    (m : α) (r : SendResult W α) (hr : s.chan.send m = .ok r) (sends : Nat → Life T α)
    (hsends : ∀ f, s.sends f = sends f ∨ sends f = .gone) (hready : s.chan.isReady = true ∨
      ∀ f t b m, sends f = .waiting t b m → b = true) (log : List (ChanEvent α)) :
    ChanWakeInv k o (ChanSys.wake k r.woken
      { chan := r.chan, sends := sends, recvs := s.recvs, log := log }) := by
  obtain ⟨hw, hrd, hws, _⟩ := send_result _ _ _ hr
  refine ⟨fun f t b m' hf => ?_, fun t0 ho f t b hf => ?_⟩
  · replace hf := wake_waiting hf
    obtain ⟨b0, hf, rfl⟩ := hf
    rcases hready with hready | hall
    · rcases hsends f with he | he
      · rcases hs.1 f t b0 m' (he.trans hf) with hb | ⟨_, w, hw', ht⟩
        · left; simp [hb]
        · right; exact ⟨hrd, w, hws.trans hw', ht⟩
      · exact absurd (he.symm.trans hf) (by simp)
    · left; simp [hall f t b0 m' hf]
  · replace hf := wake_waiting hf
    obtain ⟨b0, hf, rfl⟩ := hf
    obtain ⟨ht0, hor⟩ := hs.2 t0 ho f t b0 hf
    refine ⟨ht0, Or.inl ?_⟩
    rcases hor with hb | ⟨_, w, hw', ht⟩
    · simp [hb]
    · simp [hw, hw', ht]

theorem chanWakeInv_step (k : Wakers W T) (o : Option T) (s : ChanSys W T α) (a : ChanAction W α)
    (s' : ChanSys W T α) (hs : ChanWakeInv k o s) (hq : ReceiverTask k o a)
    (h : s.step k a = .ok (some s')) : ChanWakeInv k o s' := by
  cases a with
  | send m =>
    simp only [ChanSys.step] at h
    cases hr : s.chan.send m with
    | err => rw [hr] at h; cases h
    | panic => rw [hr] at h; cases h
    | ok r =>
      rw [hr] at h
      cases h
      refine chanWake_send k o s hs m r hr s.sends (fun _ => Or.inl rfl) ?_ _
      cases hrd : s.chan.isReady
      · right
        intro f t b m hf
        rcases hs.1 f t b m hf with hb | ⟨hb, _⟩
        · exact hb
        · rw [hrd] at hb; cases hb
      · exact Or.inl rfl
  | pollSend f cx m =>
    simp only [ChanSys.step] at h
    split at h
    · by_cases hrd : s.chan.isReady = true
      · -- the channel is full: the future waits
        have key : ∃ ws c, s.chan.sendAsyncPoll k.willWake cx ((s.sends f).message m)
              = .ok (.pending, ws, c) ∧ c = { s.chan with wakerSend := some cx } ∧
            ∀ w, s.chan.wakerSend = some w → k.task w = k.task cx ∨ w ∈ ws := by
          simp only [Channel.sendAsyncPoll, Channel.hasItem, hrd, if_true]
          cases hw : s.chan.wakerSend with
          | none => exact ⟨_, _, rfl, rfl, by simp⟩
          | some w =>
            by_cases hww : k.willWake cx w = true
            · simp only [hww, if_true]
              exact ⟨_, _, rfl, rfl, fun w' hw' => Or.inl (by
                cases hw'; exact (k.sound _ _ hww).symm)⟩
            · simp only [hww, if_false, Bool.false_eq_true]
              exact ⟨_, _, rfl, rfl, fun w' hw' => Or.inr (by cases hw'; simp)⟩
        obtain ⟨ws, c, hp, hc, hold⟩ := key
        rw [hp] at h
        cases h
        subst hc
        refine ⟨fun g t b m' hg => ?_, fun t0 ho g t b hg => ?_⟩
        · replace hg := wake_waiting hg
          obtain ⟨b0, hg, rfl⟩ := hg
          by_cases hfg : g = f
          · subst hfg
            simp only [Function.update_self] at hg
            cases hg
            exact Or.inr ⟨hrd, cx, rfl, rfl⟩
          · simp only [Function.update_of_ne hfg] at hg
            rcases hs.1 g t b0 m' hg with hb | ⟨_, w, hw, ht⟩
            · left; simp [hb]
            · rcases hold w hw with hsame | hmem
              · exact Or.inr ⟨hrd, cx, rfl, hsame.symm.trans ht⟩
              · left
                simp only [Bool.or_eq_true, List.any_eq_true, decide_eq_true_eq]
                exact Or.inr ⟨w, hmem, ht⟩
        · replace hg := wake_waiting hg
          obtain ⟨b0, hg, rfl⟩ := hg
          obtain ⟨ht0, hor⟩ := hs.2 t0 ho g t b0 hg
          refine ⟨ht0, ?_⟩
          rcases hor with hb | ⟨hb, _⟩
          · left; simp [hb]
          · rw [hrd] at hb; cases hb
      · -- the channel is empty: send in this poll
        simp only [Bool.not_eq_true] at hrd
        simp only [Channel.sendAsyncPoll, Channel.hasItem, hrd, Bool.false_eq_true, if_false] at h
        cases hr : s.chan.send ((s.sends f).message m) with
        | err => rw [hr] at h; cases h
        | panic => rw [hr] at h; cases h
        | ok r =>
          rw [hr] at h
          cases h
          refine chanWake_send k o s hs _ r hr _ (fun g => ?_) (Or.inr fun g t b m' hg => ?_) _
          · by_cases hfg : g = f
            · subst hfg; right; simp
            · left; simp [Function.update_of_ne hfg]
          · by_cases hfg : g = f
            · subst hfg; simp at hg
            · simp only [Function.update_of_ne hfg] at hg
              rcases hs.1 g t b m' hg with hb | ⟨hb, _⟩
              · exact hb
              · rw [hrd] at hb; cases hb
    · cases h
  | dropSend f =>
    simp only [ChanSys.step, Out.pure_eq, Out.ok.injEq] at h
    split at h <;> cases h
    refine ⟨fun g t b m hg => ?_, hs.2⟩
    by_cases hfg : g = f
    · subst hfg; simp at hg
    · exact hs.1 g t b m (by simpa [Function.update_of_ne hfg] using hg)
  | pollRecv f cx =>
    simp only [ChanSys.step] at h
    split at h
    · by_cases hrd : s.chan.isReady = true
      · simp only [Channel.receivePoll, hrd, Bool.not_true, Bool.false_eq_true, if_false] at h
        cases hm : s.chan.message with
        | none => rw [hm] at h; cases h
        | some v =>
          rw [hm] at h
          cases h
          refine ⟨fun g t b m' hg => ?_, fun t0 ho g t b hg => ?_⟩
          · replace hg := wake_waiting hg
            obtain ⟨b0, hg, rfl⟩ := hg
            rcases hs.1 g t b0 m' hg with hb | ⟨_, w, hw, ht⟩
            · left; simp [hb]
            · left; simp [hw, ht]
          · replace hg := wake_waiting hg
            obtain ⟨b0, hg, rfl⟩ := hg
            by_cases hfg : g = f
            · subst hfg; simp at hg
            · simp only [Function.update_of_ne hfg] at hg
              obtain ⟨ht0, hor⟩ := hs.2 t0 ho g t b0 hg
              refine ⟨ht0, ?_⟩
              rcases hor with hb | ⟨hb, _⟩
              · left; simp [hb]
              · rw [hrd] at hb; cases hb
      · simp only [Bool.not_eq_true] at hrd
        simp only [Channel.receivePoll, hrd, Bool.not_false, if_true] at h
        cases h
        refine ⟨fun g t b m' hg => ?_, fun t0 ho g t b hg => ?_⟩
        · replace hg := wake_waiting hg
          obtain ⟨b0, hg, rfl⟩ := hg
          rcases hs.1 g t b0 m' hg with hb | ⟨hb, _⟩
          · left; simp [hb]
          · rw [hrd] at hb; cases hb
        · replace hg := wake_waiting hg
          obtain ⟨b0, hg, rfl⟩ := hg
          have hcx : k.task cx = t0 := hq t0 ho f cx rfl
          by_cases hfg : g = f
          · subst hfg
            simp only [Function.update_self] at hg
            cases hg
            exact ⟨hcx, Or.inr ⟨rfl, cx, rfl, rfl⟩⟩
          · simp only [Function.update_of_ne hfg] at hg
            obtain ⟨ht0, hor⟩ := hs.2 t0 ho g t b0 hg
            exact ⟨ht0, Or.inr ⟨rfl, cx, rfl, hcx.trans ht0.symm⟩⟩
    · cases h
  | dropRecv f =>
    simp only [ChanSys.step, Out.pure_eq, Out.ok.injEq] at h
    split at h <;> cases h
    refine ⟨hs.1, fun t0 ho g t b hg => ?_⟩
    by_cases hfg : g = f
    · subst hfg; simp at hg
    · exact hs.2 t0 ho g t b (by simpa [Function.update_of_ne hfg] using hg)

theorem chanWakeInv_reachable (k : Wakers W T) (o : Option T) (acts : List (ChanAction W α))
    (hq : ∀ a ∈ acts, ReceiverTask k o a) (s : ChanSys W T α)
    (h : ChanSys.start.run k acts = .ok (some s)) : ChanWakeInv k o s :=
  chan_run_induct k (ChanWakeInv k o) (ReceiverTask k o)
    (fun s a s' hs hq h => chanWakeInv_step k o s a s' hs hq h) acts _ s
    ⟨by simp [ChanSys.start], by simp [ChanSys.start]⟩ hq h

/-- **C38.** When all receiving futures are polled by one task, then whenever a value is pending
every receiving future that is waiting has had its task woken since it returned `Pending`. -/
theorem C38_receiver_woken (k : Wakers W T) (t0 : T) (acts : List (ChanAction W α))
    (hq : ∀ f cx, ChanAction.pollRecv f cx ∈ acts → k.task cx = t0) (s : ChanSys W T α)
    (h : ChanSys.start.run k acts = .ok (some s)) (hitem : s.chan.hasItem = true) (f : Nat) (t : T)
    (b : Bool) (hf : s.recvs f = .waiting t b ()) : b = true := by
  have hinv := chanWakeInv_reachable k (some t0) acts
    (fun a ha t1 ht1 f cx hfc => by cases ht1; exact hq f cx (hfc ▸ ha)) s h
  rcases (hinv.2 t0 rfl f t b hf).2 with hb | ⟨hb, _⟩
  · exact hb
  · rw [Channel.hasItem] at hitem; rw [hitem] at hb; cases hb

/-- **C38.** Under the same condition, sending wakes every receiving future that is waiting. -/
theorem C38_send_wakes_receiver (k : Wakers W T) (t0 : T) (acts : List (ChanAction W α))
    (hq : ∀ f cx, ChanAction.pollRecv f cx ∈ acts → k.task cx = t0) (s : ChanSys W T α)
    (h : ChanSys.start.run k acts = .ok (some s)) (m : α) (f : Nat) (t : T)
    (b : Bool) (hf : s.recvs f = .waiting t b ()) :
    ∃ s', s.step k (.send m) = .ok (some s') ∧ s'.recvs f = .waiting t true () := by
  obtain ⟨o, ho⟩ := chanInv_step k s (.send m) (chanInv_reachable k acts s h)
  have hinv := chanWakeInv_reachable k (some t0) acts
    (fun a ha t1 ht1 f cx hfc => by cases ht1; exact hq f cx (hfc ▸ ha)) s h
  obtain ⟨ho, _⟩ := ho
  simp only [ChanSys.step] at ho ⊢
  cases hr : s.chan.send m with
  | err => rw [hr] at ho; cases ho
  | panic => rw [hr] at ho; cases ho
  | ok r =>
    refine ⟨_, rfl, ?_⟩
    obtain ⟨hw, _⟩ := send_result _ _ _ hr
    rcases (hinv.2 t0 rfl f t b hf).2 with hb | ⟨_, w, hw', ht⟩
    · simp [ChanSys.wake, hf, Life.wake, hb]
    · simp [ChanSys.wake, hf, Life.wake, hw, hw', ht]

/-- **C38.** Senders, of any number of tasks: whenever the channel is empty every `send_async`
future that is waiting has had its task woken since it returned `Pending`. -/
theorem C38_senders_woken (k : Wakers W T) (acts : List (ChanAction W α)) (s : ChanSys W T α)
    (h : ChanSys.start.run k acts = .ok (some s)) (hitem : s.chan.hasItem = false) (f : Nat) (t : T)
    (b : Bool) (m : α) (hf : s.sends f = .waiting t b m) : b = true := by
  -- the invariant on senders does not depend on who receives
  have hinv : ∀ f t b m, s.sends f = .waiting t b m →
      b = true ∨ (s.chan.isReady = true ∧ ∃ w, s.chan.wakerSend = some w ∧ k.task w = t) :=
    (chanWakeInv_reachable k none acts (by simp [ReceiverTask]) s h).1
  rcases hinv f t b m hf with hb | ⟨hb, _⟩
  · exact hb
  · rw [Channel.hasItem] at hitem; rw [hitem] at hb; cases hb

/-- The condition of `C38_receiver_woken` that one task polls all receiving futures cannot be
dropped: with two tasks a waiting receiver can be forgotten although a value is pending. -/
theorem C38_false_two_receivers :
    ∃ (acts : List (ChanAction Nat Nat)) (s : ChanSys Nat Nat Nat),
      ChanSys.start.run exampleWakers acts = .ok (some s) ∧ s.chan.hasItem = true ∧
      s.recvs 0 = .waiting 10 false () :=
  ⟨[.pollRecv 0 10, .pollRecv 1 20, .send 5], _, rfl, rfl, rfl⟩

/-- A history meeting the hypotheses of `C38_receiver_woken` (one receiving task, a waiting
receiver and a pending value), with a replacement and a waiting sender. -/
example : ∃ s : ChanSys Nat Nat Nat, ChanSys.start.run exampleWakers
    [.pollRecv 0 10, .pollRecv 1 10, .send 5, .send 6, .pollSend 0 20 7] = .ok (some s) ∧
    s.chan.hasItem = true ∧ s.recvs 0 = .waiting 10 true () ∧ s.recvs 1 = .waiting 10 true () ∧
    s.sends 0 = .waiting 20 false 7 ∧
    s.log = [.sent 5 false, .dropped 5, .sent 6 true] :=
  ⟨_, rfl, rfl, rfl, rfl, rfl, rfl⟩

/-- A history meeting the hypotheses of `C38_senders_woken`: an empty channel and a waiting
sender. -/
example : ∃ s : ChanSys Nat Nat Nat, ChanSys.start.run exampleWakers
    [.send 5, .pollSend 0 20 7, .pollRecv 0 10] = .ok (some s) ∧
    s.chan.hasItem = false ∧ s.sends 0 = .waiting 20 true 7 ∧
    s.log = [.sent 5 false, .received 5] :=
  ⟨_, rfl, rfl, rfl, rfl⟩

end Dot15d4.Sync
