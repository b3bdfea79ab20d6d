import Verif.Props.Channel
import Verif.Spec.Ledger

/-!
# C84: every message given to a channel is received or destroyed, once
-/

namespace Dot15d4.Sync

variable {W T α : Type} [DecidableEq T]

theorem held_wake (k : Wakers W T) (ws : List W) (l : Life T α) : (l.wake k ws).held = l.held := by
  cases l <;> rfl

theorem heldIn_congr {s s' : Nat → Life T α} {fs : List Nat}
    (h : ∀ f ∈ fs, (s f).held = (s' f).held) : heldIn s fs = heldIn s' fs := by
  induction fs with
  | nil => rfl
  | cons f fs ih =>
    simp only [heldIn, List.flatMap_cons]
    rw [h f (by simp)]
    congr 1
    exact ih fun g hg => h g (by simp [hg])

/-- All pending senders are among `fs`, which names each of them once. -/
def Covers (s : Nat → Life T α) (fs : List Nat) : Prop :=
  fs.Nodup ∧ ∀ f, f ∉ fs → (s f).held = []

theorem heldIn_update {s s' : Nat → Life T α} {fs : List Nat} (hc : Covers s fs) (f : Nat)
    (h : ∀ g, g ≠ f → (s' g).held = (s g).held) :
    ∃ gs, Covers s' gs ∧ (heldIn s' gs ++ (s f).held).Perm (heldIn s fs ++ (s' f).held) := by
  by_cases hf : f ∈ fs
  · refine ⟨fs, ⟨hc.1, fun g hg => ?_⟩, ?_⟩
    · have : g ≠ f := fun e => hg (e ▸ hf)
      rw [h g this]; exact hc.2 g hg
    · have hp : fs.Perm (f :: fs.erase f) := List.perm_cons_erase hf
      have h1 : (heldIn s fs).Perm ((s f).held ++ heldIn s (fs.erase f)) := by
        simpa [heldIn] using hp.flatMap_right (fun f => (s f).held)
      have h2 : (heldIn s' fs).Perm ((s' f).held ++ heldIn s' (fs.erase f)) := by
        simpa [heldIn] using hp.flatMap_right (fun f => (s' f).held)
      have h3 : heldIn s' (fs.erase f) = heldIn s (fs.erase f) := by
        apply heldIn_congr
        intro g hg
        exact h g (fun e => by subst e; exact (hc.1.not_mem_erase) hg)
      rw [h3] at h2
      refine (h2.append_right _).trans ?_
      refine List.Perm.trans ?_ (h1.append_right _).symm
      simp only [List.append_assoc]
      have : ∀ a b c : List α, (a ++ (b ++ c)).Perm (c ++ (b ++ a)) := fun a b c => by
        have e1 : (a ++ (b ++ c)).Perm ((b ++ c) ++ a) := List.perm_append_comm
        have e2 : ((b ++ c) ++ a).Perm ((c ++ b) ++ a) := List.perm_append_comm.append_right a
        simpa using e1.trans e2
      exact this _ _ _
  · refine ⟨f :: fs, ⟨List.nodup_cons.2 ⟨hf, hc.1⟩, fun g hg => ?_⟩, ?_⟩
    · simp only [List.mem_cons, not_or] at hg
      rw [h g hg.1]; exact hc.2 g hg.2
    · have h3 : heldIn s' fs = heldIn s fs := by
        apply heldIn_congr
        intro g hg
        exact h g (fun e => hf (e ▸ hg))
      rw [hc.2 f hf, List.append_nil]
      show ((s' f).held ++ heldIn s' fs).Perm _
      rw [h3]
      exact List.perm_append_comm

theorem covers_nil (s : Nat → Life T α) (h : ∀ f t b m, s f ≠ .waiting t b m) (fs : List Nat) :
    heldIn s fs = [] := by
  simp only [heldIn, List.flatMap_eq_nil_iff]
  intro f _
  cases hf : s f with
  | waiting t b m => exact absurd hf (h f t b m)
  | _ => rfl

theorem onePlace_last {l : List (ChanEvent α)} {b : Option α} (h : OnePlace l b) :
    ∀ m, b = some m → (sentValues l).getLast? = some m := by
  induction h with
  | empty => simp
  | send h ih => simp [sentValues]
  | replace h ih => simp [sentValues]
  | sendAsync h ih => simp [sentValues]
  | receive h ih => simp

theorem sentValues_append (l m : List (ChanEvent α)) :
    sentValues (l ++ m) = sentValues l ++ sentValues m := List.filterMap_append

theorem sentValues_dropped (l : List α) : sentValues (l.map ChanEvent.dropped) = [] := by
  simp [sentValues, List.filterMap_eq_nil_iff]

theorem sentValues_sent (m : α) (b : Bool) : sentValues [ChanEvent.sent m b] = [m] := rfl

theorem sentValues_sentAsync (m : α) : sentValues [ChanEvent.sentAsync m] = [m] := rfl

theorem sentValues_received (m : α) : sentValues [ChanEvent.received m] = [] := rfl

/-- What an action does to the account: the messages handed over are sent, kept by a pending
future, or destroyed with it. -/
theorem step_account (k : Wakers W T) (s s' : ChanSys W T α) (a : ChanAction W α)
    (h : s.step k a = .ok (some s')) (fs : List Nat) (hc : Covers s.sends fs) :
    ∃ gs, Covers s'.sends gs ∧
      (sentValues s.log ++ heldIn s.sends fs ++ handedOver s a).Perm
        (sentValues s'.log ++ heldIn s'.sends gs ++ destroyedWith s a) := by
  classical
  cases a with
  | send m =>
    simp only [ChanSys.step] at h
    obtain ⟨r, hr, h⟩ := Out.bind_eq_ok.1 h
    cases h
    refine ⟨fs, ⟨hc.1, fun f hf => ?_⟩, ?_⟩
    · simp only [ChanSys.wake, held_wake]; exact hc.2 f hf
    · have e : heldIn (ChanSys.wake k r.woken { s with chan := r.chan, log := s.log ++ r.dropped.map .dropped ++ [.sent m r.replaced] }).sends fs = heldIn s.sends fs :=
        heldIn_congr fun f _ => held_wake k _ _
      rw [e]
      simp only [handedOver, destroyedWith, ChanSys.wake, sentValues_append, sentValues_dropped,
        sentValues_sent, List.append_nil]
      simpa only [List.append_assoc] using List.perm_append_comm.append_left _
  | pollSend f cx m =>
    simp only [ChanSys.step] at h
    split at h
    case isFalse => cases h
    rename_i hal
    obtain ⟨⟨p, ws, c⟩, hp, h⟩ := Out.bind_eq_ok.1 h
    have hm : ((s.sends f).held ++ handedOver s (.pollSend f cx m)).Perm
        [(s.sends f).message m] := by
      cases hf : s.sends f with
      | fresh => simp [Life.held, handedOver, hf, Life.unused, Life.message]
      | waiting t b d => simp [Life.held, handedOver, hf, Life.unused, Life.message]
      | gone => rw [hf] at hal; cases hal
    cases p with
    | pending =>
      cases h
      obtain ⟨gs, hg, hperm⟩ := heldIn_update (s' := (ChanSys.wake k ws
          { s with chan := c, sends := Function.update s.sends f (.waiting (k.task cx) false ((s.sends f).message m)) }).sends) hc f
        (fun g hg => by simp [ChanSys.wake, held_wake, Function.update_of_ne hg])
      refine ⟨gs, hg, ?_⟩
      rw [List.perm_iff_count] at hperm hm ⊢
      intro x
      have h1 := hperm x
      have h2 := hm x
      simp only [List.count_append, destroyedWith, ChanSys.wake, held_wake, Function.update_self,
        List.count_nil] at h1 h2 ⊢
      simp only [Life.held] at h1 h2 ⊢
      omega
    | ready r =>
      cases h
      obtain ⟨gs, hg, hperm⟩ := heldIn_update (s' := (ChanSys.wake k ws
          { s with chan := c, sends := Function.update s.sends f .gone, log := s.log ++ r.dropped.map .dropped ++ [.sentAsync ((s.sends f).message m)] }).sends) hc f
        (fun g hg => by simp [ChanSys.wake, held_wake, Function.update_of_ne hg])
      refine ⟨gs, hg, ?_⟩
      rw [List.perm_iff_count] at hperm hm ⊢
      intro x
      have h1 := hperm x
      have h2 := hm x
      simp only [List.count_append, destroyedWith, ChanSys.wake, held_wake, Function.update_self,
        List.count_nil, sentValues_append, sentValues_dropped, sentValues_sentAsync] at h1 h2 ⊢
      simp only [Life.held, List.count_nil] at h1 h2 ⊢
      omega
  | dropSend f =>
    simp only [ChanSys.step] at h
    split at h <;> cases h
    obtain ⟨gs, hg, hperm⟩ := heldIn_update (s' := Function.update s.sends f .gone) hc f
        (fun g hg => by simp [Function.update_of_ne hg])
    refine ⟨gs, hg, ?_⟩
    rw [List.perm_iff_count] at hperm ⊢
    intro x
    have h1 := hperm x
    simp only [List.count_append, destroyedWith, handedOver, Function.update_self,
        List.count_nil] at h1 ⊢
    simp only [Life.held, List.count_nil] at h1 ⊢
    omega
  | pollRecv f cx =>
    simp only [ChanSys.step] at h
    split at h
    case isFalse => cases h
    obtain ⟨⟨p, ws, c⟩, hp, h⟩ := Out.bind_eq_ok.1 h
    cases p with
    | pending =>
      cases h
      refine ⟨fs, ⟨hc.1, fun f hf => ?_⟩, ?_⟩
      · simp only [ChanSys.wake, held_wake]; exact hc.2 f hf
      · simp only [handedOver, destroyedWith, ChanSys.wake]
        rw [heldIn_congr (s := fun f => (s.sends f).wake k ws) fun f _ => held_wake k _ _]
    | ready v =>
      cases h
      refine ⟨fs, ⟨hc.1, fun f hf => ?_⟩, ?_⟩
      · simp only [ChanSys.wake, held_wake]; exact hc.2 f hf
      · simp only [handedOver, destroyedWith, ChanSys.wake]
        rw [heldIn_congr (s := fun f => (s.sends f).wake k ws) fun f _ => held_wake k _ _]
        simp [sentValues_append, sentValues_received]
  | dropRecv f =>
    simp only [ChanSys.step] at h
    split at h <;> cases h
    exact ⟨fs, hc, .refl _⟩

/-- The books balance. -/
def Balanced (l : Ledger W T α) : Prop :=
  ChanInv l.sys ∧ ∃ fs, Covers l.sys.sends fs ∧
    l.given.Perm (l.received ++ l.destroyed ++ l.left ++ sentValues l.sys.log ++
      heldIn l.sys.sends fs)

omit [DecidableEq T] in
theorem balanced_total {l : Ledger W T α} (h : Balanced l) :
    ∃ fs, Covers l.sys.sends fs ∧
      l.given.Perm (l.allReceived ++ l.allDestroyed ++ l.left ++ l.sys.chan.message.toList ++
        heldIn l.sys.sends fs) := by
  classical
  obtain ⟨⟨h1, h2⟩, fs, hc, hp⟩ := h
  refine ⟨fs, hc, hp.trans ?_⟩
  have hb := (onePlace_perm h2).1
  rw [List.perm_iff_count] at hb ⊢
  intro x
  have := hb x
  simp only [Ledger.allReceived, Ledger.allDestroyed, List.count_append] at this ⊢
  omega

theorem balanced_finish {l : Ledger W T α} (h : Balanced l) (hi : l.sys.Idle) :
    l.given.Perm (l.allReceived ++ l.allDestroyed ++ (l.finish [] Channel.new).left) := by
  classical
  obtain ⟨fs, hc, hp⟩ := balanced_total h
  obtain ⟨⟨h1, h2⟩, -⟩ := h
  rw [covers_nil _ hi.1, List.append_nil] at hp
  have e : (l.finish [] Channel.new).left = l.left ++ l.sys.chan.message.toList := by
    simp only [Ledger.finish]
    congr 1
    cases hm : l.sys.chan.message with
    | none =>
      rw [hm] at h1
      rw [if_neg (by simpa [Channel.hasItem] using h1)]
      rfl
    | some m =>
      rw [hm] at h1
      rw [if_pos (show l.sys.chan.hasItem = true from h1.2 rfl), onePlace_last h2 m hm]
  rw [e]
  simpa [List.append_assoc] using hp

theorem balanced_lifetime (k : Wakers W T) {l : Ledger W T α} (h : Lifetime k l) : Balanced l := by
  classical
  induction h with
  | start =>
    refine ⟨⟨by simp [Ledger.start, ChanSys.start, Channel.new], .empty⟩, [], ⟨.nil, ?_⟩, ?_⟩
    · intro f _; rfl
    · simp [Ledger.start, ChanSys.start, sentValues, heldIn]
  | @act l a s hl hs ih =>
    obtain ⟨hinv, fs, hc, hp⟩ := ih
    obtain ⟨o, ho, hinv'⟩ := chanInv_step k l.sys a hinv
    rw [hs] at ho
    cases ho
    obtain ⟨gs, hg, hq⟩ := step_account k _ _ a hs fs hc
    refine ⟨hinv' s rfl, gs, hg, ?_⟩
    simp only [Ledger.after]
    rw [List.perm_iff_count] at hp hq ⊢
    intro x
    have h1 := hp x
    have h2 := hq x
    simp only [List.count_append] at h1 h2 ⊢
    omega
  | @split l hl hi ih =>
    have hp := balanced_finish ih hi
    refine ⟨⟨by simp [Ledger.finish, Channel.split, Channel.new], .empty⟩, [],
      ⟨.nil, fun f _ => rfl⟩, ?_⟩
    refine hp.trans ?_
    simp [Ledger.finish, Channel.split, Channel.dropped, ChanSys.start, sentValues, heldIn]

/-- **C84**, the exact account: when a channel is gone, the messages given to it over its whole life,
over any number of splits, are those received, those destroyed, and those left behind -- for every
split or drop that found `has_item()` true, the message sent last -- each exactly once. -/
theorem C84_account_partial (k : Wakers W T) (e : Ledger W T α) (h : WholeLife k e) :
    e.given.Perm (e.received ++ e.destroyed ++ e.left) := by
  obtain ⟨l, hl, hi, rfl⟩ := h
  have := balanced_finish (balanced_lifetime k hl) hi
  simpa [Ledger.finish, Channel.dropped] using this

/-- **C84** while the channel exists: every message given is received, destroyed, left behind, in the
channel (at most one, and exactly if `has_item()`), or held by a pending `send_async`; once. -/
theorem C84_always (k : Wakers W T) (l : Ledger W T α) (h : Lifetime k l) :
    ∃ (inside : Option α) (fs : List Nat), (inside.isSome ↔ l.sys.chan.hasItem = true) ∧
      fs.Nodup ∧ (∀ f t b m, l.sys.sends f = .waiting t b m → f ∈ fs) ∧
      l.given.Perm (l.allReceived ++ l.allDestroyed ++ l.left ++ inside.toList ++
        heldIn l.sys.sends fs) := by
  obtain ⟨fs, hc, hp⟩ := balanced_total (balanced_lifetime k h)
  refine ⟨_, fs, (balanced_lifetime k h).1.1.symm, hc.1, ?_, hp⟩
  intro f t b m hf
  by_contra hn
  have := hc.2 f hn
  rw [hf] at this
  cases this

/-- **C84** for programs that empty the channel before they split or drop it: everything given is
received or destroyed, exactly once. -/
theorem C84_clean (k : Wakers W T) (e : Ledger W T α) (h : WholeLife k e) (hl : e.left = []) :
    e.given.Perm (e.received ++ e.destroyed) := by
  have := C84_account_partial k e h
  rwa [hl, List.append_nil] at this

/-- **C84**, no double free and no use after free: if the messages given are all different, nothing
is received or destroyed twice, and nothing received is destroyed by the channel. -/
theorem C84_once (k : Wakers W T) (l : Ledger W T α) (h : Lifetime k l) (hd : l.given.Nodup) :
    (l.allReceived ++ l.allDestroyed).Nodup := by
  obtain ⟨fs, -, hp⟩ := balanced_total (balanced_lifetime k h)
  have := hp.nodup_iff.1 hd
  simp only [List.append_assoc] at this ⊢
  rw [← List.append_assoc] at this
  exact (List.nodup_append.1 this).1

/-- The full property. -/
def C84_statement : Prop := ∀ (W T α : Type) (_ : DecidableEq T) (k : Wakers W T)
  (e : Ledger W T α), WholeLife k e → e.given.Perm (e.received ++ e.destroyed)

/-- It is false: a message sent and never received is not destroyed when the channel is dropped. -/
theorem C84_false : ¬ C84_statement := by
  intro h
  have hl : Lifetime exampleWakers ((Ledger.start : Ledger Nat Nat Nat).after (.send 7)
      (ChanSys.wake exampleWakers [] { ChanSys.start with chan := ⟨some 7, true, none, none⟩, log := [.sent 7 false] })) :=
    .act .start rfl
  have := h Nat Nat Nat inferInstance exampleWakers _ ⟨_, hl, ⟨fun _ _ _ _ => nofun, fun _ _ _ => nofun⟩, rfl⟩
  have := this.length_eq
  simp [Ledger.finish, Ledger.after, Ledger.start, handedOver, Ledger.allReceived,
    Ledger.allDestroyed, receivedValues, droppedValues, ChanSys.wake, destroyedWith,
    Channel.dropped] at this

/-- Non-vacuity: a life with two splits in which one message is received, one replaced, one
destroyed with its future and one left behind by the second `split`. -/
example : ∃ e : Ledger Nat Nat Nat, WholeLife exampleWakers e ∧ e.given = [1, 2, 3, 4] ∧
    e.received = [2] ∧ e.destroyed = [3, 1] ∧ e.left = [4] := by
  have h1 := Lifetime.act (k := exampleWakers) (a := .send 1) (.start (α := Nat)) rfl
  have h2 := h1.act (a := .send 2) rfl
  have h3 := h2.act (a := .pollSend 0 5 3) rfl
  have h4 := h3.act (a := .dropSend 0) rfl
  have h5 := h4.act (a := .pollRecv 0 6) rfl
  have h6 := h5.act (a := .send 4) rfl
  have h7 := h6.split ⟨fun f t b m => by cases f <;> nofun, fun f t b => by cases f <;> nofun⟩
  refine ⟨_, ⟨_, h7, ⟨fun _ _ _ _ => nofun, fun _ _ _ => nofun⟩, rfl⟩, rfl, rfl, rfl,
    rfl⟩

end Dot15d4.Sync
