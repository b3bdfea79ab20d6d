import Verif.Spec.Sync
import Mathlib.Tactic.Tauto

/-!
# C35, C36: the mutex
-/

namespace Dot15d4.Sync

variable {W T V : Type} [DecidableEq T]

theorem mutex_run_induct (k : Wakers W T) (P : MutexSys W T V → Prop)
    (hstep : ∀ s a s', P s → s.step k a = some s' → P s') :
    ∀ (acts : List (MutexAction W V)) (s s' : MutexSys W T V),
      P s → s.run k acts = some s' → P s'
  | [], s, s', hs, h => by simp [MutexSys.run] at h; exact h ▸ hs
  | a :: as, s, s', hs, h => by
    simp only [MutexSys.run, List.foldlM_cons, Option.bind_eq_bind,
      Option.bind_eq_some_iff] at h
    obtain ⟨s1, h1, h2⟩ := h
    exact mutex_run_induct k P hstep as s1 s' (hstep _ _ _ hs h1) h2

/-- Guards and the locked flag agree. -/
def GuardInv (s : MutexSys W T V) : Prop :=
  (s.mutex.locked = false ∧ s.guards = []) ∨ (s.mutex.locked = true ∧ ∃ g, s.guards = [g])

theorem guardInv_step (k : Wakers W T) (s : MutexSys W T V) (a : MutexAction W V)
    (s' : MutexSys W T V) (hs : GuardInv s) (h : s.step k a = some s') : GuardInv s' := by
  cases a with
  | poll f cx =>
    simp only [MutexSys.step] at h
    split at h
    · rcases hs with ⟨hl, hg⟩ | ⟨hl, g, hg⟩ <;>
        simp only [Mutex.lockPoll, hl, Bool.false_eq_true, if_false, if_true] at h <;> cases h <;>
        simp [GuardInv, hg, hl]
    · cases h
  | dropFuture f =>
    simp only [MutexSys.step] at h
    split at h
    · cases h; exact hs
    · cases h
  | tryLock g =>
    simp only [MutexSys.step] at h
    split at h
    · rcases hs with ⟨hl, hg⟩ | ⟨hl, g, hg⟩ <;>
        simp only [Mutex.tryLock, hl, Bool.not_false, Bool.not_true, Bool.false_eq_true, if_false,
          if_true] at h <;> cases h <;> simp [GuardInv, hg, hl]
    · cases h
  | write g v =>
    simp only [MutexSys.step] at h
    split at h
    · cases h; exact hs
    · cases h
  | dropGuard g =>
    simp only [MutexSys.step] at h
    split at h
    · rename_i hg'
      rcases hs with ⟨hl, hg⟩ | ⟨hl, g', hg⟩
      · rw [hg] at hg'; cases hg'
      · rw [hg] at hg'
        simp only [List.mem_singleton] at hg'
        subst hg'
        cases h
        left
        simp [Mutex.guardDrop, hg]
    · cases h

theorem guardInv_reachable (k : Wakers W T) (v : V) (acts : List (MutexAction W V))
    (s : MutexSys W T V) (h : (MutexSys.start v).run k acts = some s) : GuardInv s :=
  mutex_run_induct k GuardInv (guardInv_step k) acts _ s (Or.inl ⟨rfl, rfl⟩) h

/-- **C35.** After every schedule of polls, drops of lock futures, `try_lock` calls, writes and
guard drops, by any number of tasks, at most one guard is alive, and the mutex is locked exactly
when one is. -/
theorem C35_at_most_one_guard (k : Wakers W T) (v : V) (acts : List (MutexAction W V))
    (s : MutexSys W T V) (h : (MutexSys.start v).run k acts = some s) :
    s.guards.length ≤ 1 ∧ (s.mutex.locked = true ↔ s.guards ≠ []) := by
  rcases guardInv_reachable k v acts s h with ⟨hl, hg⟩ | ⟨hl, g, hg⟩ <;> simp [hl, hg]

/-- **C35.** While a guard is alive the protected value changes only by writes through it. -/
theorem C35_exclusive_access (k : Wakers W T) (v : V) (acts : List (MutexAction W V))
    (s : MutexSys W T V) (h : (MutexSys.start v).run k acts = some s) (g : Nat)
    (hg : g ∈ s.guards) (a : MutexAction W V) (ha : ∀ u, a ≠ .write g u) (s' : MutexSys W T V)
    (hs : s.step k a = some s') : s'.mutex.value = s.mutex.value := by
  rcases guardInv_reachable k v acts s h with ⟨hl, hg'⟩ | ⟨hl, g', hg'⟩
  · rw [hg'] at hg; cases hg
  rw [hg', List.mem_singleton] at hg
  subst hg
  cases a with
  | poll f cx =>
    simp only [MutexSys.step, Mutex.lockPoll, hl, if_true] at hs
    split at hs <;> cases hs; rfl
  | dropFuture f => simp only [MutexSys.step] at hs; split at hs <;> cases hs; rfl
  | tryLock f =>
    simp only [MutexSys.step, Mutex.tryLock, hl, Bool.not_true, Bool.false_eq_true, if_false] at hs
    split at hs <;> cases hs; rfl
  | write f u =>
    simp only [MutexSys.step, hg', List.mem_singleton] at hs
    split at hs
    · rename_i h'; subst h'; exact absurd rfl (ha u)
    · cases hs
  | dropGuard f => simp only [MutexSys.step] at hs; split at hs <;> cases hs; rfl

/-- **C35.** What a guard has read stays true: as long as the guard is neither dropped nor written
through, in every continuation of every schedule and whatever the other tasks try, the guard stays
the only one, and the value is the same.  So a read and a later write through one guard (`*guard +=
1`) are one atomic step: no update is lost. -/
theorem C35_stable (k : Wakers W T) (v : V) (before during : List (MutexAction W V))
    (s s' : MutexSys W T V) (h : (MutexSys.start v).run k before = some s) (g : Nat)
    (hg : g ∈ s.guards) (hw : ∀ u, MutexAction.write g u ∉ during)
    (hd : MutexAction.dropGuard g ∉ during) (h' : s.run k during = some s') :
    s'.guards = [g] ∧ s'.mutex.guardRead = s.mutex.guardRead := by
  induction during generalizing s before with
  | nil =>
    replace h' : s = s' := by simpa [MutexSys.run] using h'
    subst h'
    rcases guardInv_reachable k v before s h with ⟨hl, hg'⟩ | ⟨hl, g', hg'⟩
    · rw [hg'] at hg; cases hg
    · rw [hg', List.mem_singleton] at hg
      exact ⟨hg ▸ hg', rfl⟩
  | cons a during ih =>
    simp only [MutexSys.run, List.foldlM_cons, Option.bind_eq_bind, Option.bind_eq_some_iff] at h'
    obtain ⟨s1, h1, h2⟩ := h'
    have hv := C35_exclusive_access k v before s h g hg a
      (fun u e => hw u (e ▸ List.mem_cons_self)) s1 h1
    have hr : (MutexSys.start v).run k (before ++ [a]) = some s1 := by
      simp only [MutexSys.run, List.foldlM_append] at h ⊢
      rw [h]
      simp [h1]
    have hg1 : g ∈ s1.guards := by
      rcases guardInv_reachable k v before s h with ⟨hl, hg'⟩ | ⟨hl, g', hg'⟩
      · rw [hg'] at hg; cases hg
      have hgg : g = g' := by rw [hg', List.mem_singleton] at hg; exact hg
      subst hgg
      cases a with
      | poll f cx =>
        simp only [MutexSys.step, Mutex.lockPoll, hl, if_true] at h1
        split at h1 <;> cases h1; exact hg
      | dropFuture f => simp only [MutexSys.step] at h1; split at h1 <;> cases h1; exact hg
      | tryLock f =>
        simp only [MutexSys.step, Mutex.tryLock, hl, Bool.not_true, Bool.false_eq_true,
          if_false] at h1
        split at h1 <;> cases h1; exact hg
      | write f u => simp only [MutexSys.step] at h1; split at h1 <;> cases h1; exact hg
      | dropGuard f =>
        simp only [MutexSys.step, hg', List.mem_singleton] at h1
        split at h1
        · rename_i e; subst e; exact absurd List.mem_cons_self hd
        · cases h1
    obtain ⟨e1, e2⟩ := ih (before ++ [a]) s1 hr hg1
      (fun u hu => hw u (List.mem_cons_of_mem _ hu)) (fun hu => hd (List.mem_cons_of_mem _ hu)) h2
    exact ⟨e1, e2.trans hv⟩

/-- The value written last in a schedule, `v` if there is no write. -/
def lastWritten (v : V) : List (MutexAction W V) → V
  | [] => v
  | .write _ u :: acts => lastWritten u acts
  | _ :: acts => lastWritten v acts

/-- **C35.** The protected value is a plain variable: after every schedule, a guard, `get_mut` and
`read` all see the value written last (through whichever guard), or the initial one; acquiring,
waiting, waking and releasing never change it.  A write through `get_mut` is seen by all of them and
leaves the lock and the waiting task as they were. -/
theorem C35_last_write (k : Wakers W T) (v : V) (acts : List (MutexAction W V))
    (s : MutexSys W T V) (h : (MutexSys.start v).run k acts = some s) :
    s.mutex.guardRead = lastWritten v acts ∧ s.mutex.read = lastWritten v acts ∧
    ∀ u, (s.mutex.getMutWrite u).guardRead = u ∧ (s.mutex.getMutWrite u).read = u ∧
      (s.mutex.getMutWrite u).locked = s.mutex.locked ∧
      (s.mutex.getMutWrite u).waker = s.mutex.waker := by
  have key : ∀ (acts : List (MutexAction W V)) (s0 s1 : MutexSys W T V),
      s0.run k acts = some s1 → s1.mutex.value = lastWritten s0.mutex.value acts := by
    intro acts
    induction acts with
    | nil => intro s0 s1 h; cases h; rfl
    | cons a acts ih =>
      intro s0 s1 h
      simp only [MutexSys.run, List.foldlM_cons] at h
      cases hs : s0.step k a with
      | none => rw [hs] at h; cases h
      | some s2 =>
        rw [hs] at h
        rw [ih s2 s1 h]
        cases a with
        | poll f cx =>
          simp only [MutexSys.step, Mutex.lockPoll] at hs
          cases hl : s0.mutex.locked <;> rw [hl] at hs <;> split at hs <;> cases hs <;> rfl
        | dropFuture f => simp only [MutexSys.step] at hs; split at hs <;> cases hs; rfl
        | tryLock f =>
          simp only [MutexSys.step, Mutex.tryLock] at hs
          cases hl : s0.mutex.locked <;> rw [hl] at hs <;> split at hs <;> cases hs <;> rfl
        | write f u => simp only [MutexSys.step] at hs; split at hs <;> cases hs; rfl
        | dropGuard f => simp only [MutexSys.step] at hs; split at hs <;> cases hs; rfl
  exact ⟨key acts _ s h, key acts _ s h, fun u => ⟨rfl, rfl, rfl, rfl⟩⟩

/-- **C35.** A `lock()` poll and a `try_lock` call succeed exactly when no guard is alive, and then
produce one. -/
theorem C35_acquire_iff_free (k : Wakers W T) (v : V) (acts : List (MutexAction W V))
    (s : MutexSys W T V) (h : (MutexSys.start v).run k acts = some s) (f : Nat) (s' : MutexSys W T V)
    (a : MutexAction W V) (ha : (∃ cx, a = .poll f cx) ∨ a = .tryLock f)
    (hs : s.step k a = some s') :
    (s.guards = [] → s'.guards = [f]) ∧ (s.guards ≠ [] → s'.guards = s.guards) := by
  rcases guardInv_reachable k v acts s h with ⟨hl, hg⟩ | ⟨hl, g, hg⟩ <;>
    rcases ha with ⟨cx, rfl⟩ | rfl <;>
    simp only [MutexSys.step, Mutex.lockPoll, Mutex.tryLock, hl, Bool.not_false, Bool.not_true,
      Bool.false_eq_true, if_false, if_true] at hs <;>
    split at hs <;> cases hs <;> simp [hg]

/-- Nobody waiting is forgotten: a pending future was woken since it returned `Pending`, or the
mutex is locked and keeps a waker of its task. -/
def WakeInv (k : Wakers W T) (s : MutexSys W T V) : Prop :=
  (s.mutex.locked = false → s.mutex.waker = none) ∧
  ∀ f t b, s.futs f = .waiting t b () →
    b = true ∨ (s.mutex.locked = true ∧ ∃ w, s.mutex.waker = some w ∧ k.task w = t)

theorem wake_waiting {k : Wakers W T} {ws : List W} {D : Type} {l : Life T D} {t : T} {b : Bool}
    {d : D} (h : l.wake k ws = .waiting t b d) :
    ∃ b0, l = .waiting t b0 d ∧ b = (b0 || ws.any fun w => k.task w = t) := by
  cases l <;> simp only [Life.wake] at h <;> cases h
  exact ⟨_, rfl, rfl⟩

theorem wakeInv_step (k : Wakers W T) (s : MutexSys W T V) (a : MutexAction W V)
    (s' : MutexSys W T V) (hs : WakeInv k s) (h : s.step k a = some s') : WakeInv k s' := by
  obtain ⟨hfree, hw⟩ := hs
  cases a with
  | poll f cx =>
    simp only [MutexSys.step] at h
    split at h
    · by_cases hl : s.mutex.locked = true
      · simp only [Mutex.lockPoll, hl, if_true] at h
        cases h
        refine ⟨by simp [hl], fun g t b hg => ?_⟩
        replace hg := wake_waiting hg; obtain ⟨b0, hg, rfl⟩ := hg
        have hsome : (replaceWaker k.willWake s.mutex.waker cx).2 = some cx := by
          cases hk : s.mutex.waker with
          | none => simp [replaceWaker]
          | some w => cases hww : k.willWake w cx <;> simp [replaceWaker, hww]
        by_cases hfg : g = f
        · subst hfg
          simp only [Function.update_self] at hg
          cases hg
          right
          exact ⟨rfl, cx, hsome, rfl⟩
        · rw [Function.update_of_ne hfg] at hg
          rcases hw g t b0 hg with hb | ⟨_, w, hmw, ht⟩
          · left; simp [hb]
          · cases hww : k.willWake w cx
            · left
              simp [replaceWaker, hmw, hww, ht]
            · right
              exact ⟨rfl, cx, hsome, by rw [← ht]; exact (k.sound _ _ hww).symm⟩
      · simp only [Mutex.lockPoll, hl, Bool.false_eq_true, if_false] at h
        cases h
        refine ⟨by simp, fun g t b hg => ?_⟩
        replace hg := wake_waiting hg; obtain ⟨b0, hg, rfl⟩ := hg
        by_cases hfg : g = f
        · subst hfg; simp only [Function.update_self] at hg; cases hg
        · rw [Function.update_of_ne hfg] at hg
          rcases hw g t b0 hg with hb | ⟨hl', _⟩
          · left; simp [hb]
          · exact absurd hl' hl
    · cases h
  | dropFuture f =>
    simp only [MutexSys.step] at h
    split at h
    · cases h
      refine ⟨hfree, fun g t b hg => ?_⟩
      by_cases hfg : g = f
      · subst hfg; simp only [Function.update_self] at hg; cases hg
      · exact hw g t b (by simpa [Function.update_of_ne hfg] using hg)
    · cases h
  | tryLock g =>
    simp only [MutexSys.step] at h
    split at h
    · by_cases hl : s.mutex.locked = true
      · simp only [Mutex.tryLock, hl, Bool.not_true, Bool.false_eq_true, if_false] at h
        cases h; exact ⟨hfree, hw⟩
      · simp only [Bool.not_eq_true] at hl
        simp only [Mutex.tryLock, hl, Bool.not_false, if_true] at h
        cases h
        refine ⟨by simp, fun g' t b hg => ?_⟩
        by_cases hfg : g' = g
        · subst hfg; simp only [Function.update_self] at hg; cases hg
        · rcases hw g' t b (by simpa [Function.update_of_ne hfg] using hg) with hb | ⟨hl', _⟩
          · exact Or.inl hb
          · rw [hl] at hl'; cases hl'
    · cases h
  | write g v =>
    simp only [MutexSys.step] at h
    split at h
    · cases h; exact ⟨hfree, hw⟩
    · cases h
  | dropGuard g =>
    simp only [MutexSys.step] at h
    split at h
    · cases h
      refine ⟨by simp [Mutex.guardDrop], fun g t b hg => ?_⟩
      replace hg := wake_waiting hg; obtain ⟨b0, hg, rfl⟩ := hg
      rcases hw g t b0 hg with hb | ⟨_, w, hmw, ht⟩
      · left; simp [hb]
      · left; simp [Mutex.guardDrop, hmw, ht]
    · cases h

/-- **C36.** In every reachable state, a future waiting in `lock()` either has had its task woken
since its last poll, or a guard is alive whose drop will wake that task. -/
theorem C36_waiters_not_forgotten (k : Wakers W T) (v : V) (acts : List (MutexAction W V))
    (s : MutexSys W T V) (h : (MutexSys.start v).run k acts = some s) (f : Nat) (t : T) (b : Bool)
    (hf : s.futs f = .waiting t b ()) :
    b = true ∨ (s.guards ≠ [] ∧ ∀ g s', s.step k (.dropGuard g) = some s' →
      s'.futs f = .waiting t true ()) := by
  have hw : WakeInv k s := mutex_run_induct k (WakeInv k) (wakeInv_step k) acts _ s
    ⟨by simp [MutexSys.start, Mutex.new], by simp [MutexSys.start]⟩ h
  rcases hw.2 f t b hf with hb | ⟨hl, w, hmw, ht⟩
  · exact Or.inl hb
  right
  refine ⟨(C35_at_most_one_guard k v acts s h).2.mp hl, fun g s' hs => ?_⟩
  simp only [MutexSys.step] at hs
  split at hs <;> cases hs
  simp [Mutex.guardDrop, hmw, Life.wake, hf, ht]

/-- **C36.** When the mutex is free, every future waiting in `lock()` has had its task woken since
its last poll, and polling any one of them succeeds. -/
theorem C36_free_means_woken (k : Wakers W T) (v : V) (acts : List (MutexAction W V))
    (s : MutexSys W T V) (h : (MutexSys.start v).run k acts = some s) (hfree : s.guards = [])
    (f : Nat) (t : T) (b : Bool) (hf : s.futs f = .waiting t b ()) :
    b = true ∧ ∀ cx, ∃ s', s.step k (.poll f cx) = some s' ∧ s'.guards = [f] := by
  constructor
  · rcases C36_waiters_not_forgotten k v acts s h f t b hf with hb | ⟨hg, _⟩
    · exact hb
    · exact absurd hfree hg
  · intro cx
    have hl : s.mutex.locked = false := by
      cases hl : s.mutex.locked
      · rfl
      · exact absurd hfree ((C35_at_most_one_guard k v acts s h).2.mp hl)
    simp [MutexSys.step, hf, Life.alive, Mutex.lockPoll, hl, hfree]

/-- **C36.** Dropping a guard wakes the task of every future waiting in `lock()` that had not been
woken already. -/
theorem C36_guard_drop_wakes (k : Wakers W T) (v : V) (acts : List (MutexAction W V))
    (s : MutexSys W T V) (h : (MutexSys.start v).run k acts = some s) (g : Nat)
    (s' : MutexSys W T V) (hs : s.step k (.dropGuard g) = some s') (f : Nat) (t : T) (b : Bool)
    (hf : s.futs f = .waiting t b ()) : s'.futs f = .waiting t true () := by
  rcases C36_waiters_not_forgotten k v acts s h f t b hf with hb | ⟨_, hd⟩
  · subst hb
    simp only [MutexSys.step] at hs
    split at hs <;> cases hs
    simp [Life.wake, hf]
  · exact hd g s' hs

/-- Two tasks whose wakers are told apart, used in the examples. -/
def exampleWakers : Wakers Nat Nat where
  task := id
  willWake a b := a == b
  sound := by intro a b h; simpa using h

/-- A schedule in which future 1 and future 2, of two tasks, wait for guard 0; the guard is then
dropped, and both are woken. -/
def exampleSchedule : List (MutexAction Nat Nat) :=
  [.tryLock 0, .poll 1 10, .poll 2 20, .write 0 7, .dropGuard 0]

example : ∃ s, (MutexSys.start (W := Nat) (T := Nat) 5).run exampleWakers exampleSchedule = some s ∧
    s.guards = [] ∧ s.futs 1 = .waiting 10 true () ∧ s.futs 2 = .waiting 20 true () ∧
    s.mutex.value = 7 := by
  refine ⟨_, rfl, ?_, ?_, ?_, ?_⟩ <;> rfl

example : lastWritten (W := Nat) 5 exampleSchedule = 7 ∧
    ∃ s, (MutexSys.start (W := Nat) (T := Nat) 5).run exampleWakers exampleSchedule = some s ∧
      s.mutex.read = 7 := ⟨rfl, _, rfl, rfl⟩

example : ∃ s, (MutexSys.start (W := Nat) (T := Nat) 5).run exampleWakers
    (exampleSchedule.take 3) = some s ∧ s.guards = [0] ∧ s.futs 2 = .waiting 20 false () := by
  refine ⟨_, rfl, ?_, ?_⟩ <;> rfl

example : ∃ s s', (MutexSys.start (W := Nat) (T := Nat) 5).run exampleWakers [.tryLock 0] = some s ∧
    0 ∈ s.guards ∧ s.run exampleWakers [.poll 1 10, .tryLock 2, .poll 3 20, .dropFuture 1] = some s' ∧
    s'.guards = [0] ∧ s'.mutex.guardRead = 5 := ⟨_, _, rfl, by decide, rfl, rfl, rfl⟩

end Dot15d4.Sync
