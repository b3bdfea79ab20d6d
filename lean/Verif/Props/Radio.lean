import Verif.Spec.Radio

/-!
# C42: the radio futures
-/

namespace Dot15d4.Sync

variable {P O W Ω : Type}

/-- The locals of a suspended future. -/
def heldLocals : Locals := { borrowed := true, armed := true }

/-- Driving on from the second await, after `i` pending polls of the first and `j` of the second. -/
theorem drive_operating (ops : RadioOps P O W Ω) (i : Nat) :
    ∀ (sched : List (W × (Ω → Ω))) (j : Nat) (s : O) (w : Ω), 0 < j →
      ∃ r st w' l d w'', driveRadio ops.record (onWorld sched) (.operating heldLocals s)
          (w, List.replicate i .preparePending ++ [.prepared] ++
            List.replicate j .operatePending) = .ok (r, st, (w', l)) ∧
        dropRadio ops.record st (w', l) = .ok (w'', l ++ d) ∧
        RadioRun (i + j + sched.length) r l d
  | [], j, s, w, hj => by
    refine ⟨none, _, w, _, [.operateDropped, .cancelled], ops.cancel (ops.operate.drop s w), rfl,
      ?_, .operating i j hj rfl⟩
    simp [dropRadio, Locals.dropAll, Locals.dropOnDrop, heldLocals, RadioOps.record]
  | (cx, env) :: sched, j, s, w, hj => by
    cases h1 : ops.operate.poll cx s (env w) with
    | mk p r =>
      obtain ⟨s1, w1⟩ := r
      cases p with
      | pending =>
        obtain ⟨r, st, w', l, d, w'', hd, hdrop, hrun⟩ :=
          drive_operating ops i sched (j + 1) s1 w1 (by omega)
        refine ⟨r, st, w', l, d, w'', ?_, hdrop, ?_⟩
        · rw [← hd]
          simp [driveRadio, onWorld, pollRadio, pollOperate, RadioOps.record, h1,
            List.replicate_succ']
        · rw [show i + j + ((cx, env) :: sched).length = i + (j + 1) + sched.length by
            simp; omega]
          exact hrun
      | ready b =>
        refine ⟨some b, .returned, w1, _, [], w1, ?_, ?_,
          .completed i j b (by simp)⟩
        · simp [driveRadio, onWorld, pollRadio, pollOperate, RadioOps.record, h1, Locals.defuse,
            Locals.dropAll, Locals.dropOnDrop]
        · simp [dropRadio]

/-- A poll in which the prepare future becomes ready goes on to the radio's method. -/
theorem drive_preparing (ops : RadioOps P O W Ω) :
    ∀ (sched : List (W × (Ω → Ω))) (i : Nat) (s : P) (w : Ω) (st : OpState P O),
      (st = .preparing heldLocals s ∧ 0 < i) ∨
        (st = .unresumed ∧ i = 0 ∧ s = ops.prepare.init) →
      ∃ r st' w' l d w'', driveRadio ops.record (onWorld sched) st
          (w, List.replicate i .preparePending) = .ok (r, st', (w', l)) ∧
        dropRadio ops.record st' (w', l) = .ok (w'', l ++ d) ∧
        RadioRun (i + sched.length) r l d
  | [], i, s, w, st, hst => by
    rcases hst with ⟨rfl, hi⟩ | ⟨rfl, rfl, rfl⟩
    · refine ⟨none, _, w, _, [.prepareDropped, .cancelled], ops.cancel (ops.prepare.drop s w), rfl,
        ?_, .preparing hi⟩
      simp [dropRadio, Locals.dropAll, Locals.dropOnDrop, heldLocals, RadioOps.record]
    · exact ⟨none, _, w, _, [], w, rfl, by simp [dropRadio], .untouched rfl⟩
  | (cx, env) :: sched, i, s, w, st, hst => by
    have hpoll : ∀ w, pollRadio ops.record cx st w = pollPrepare ops.record cx heldLocals s w := by
      intro w
      rcases hst with ⟨rfl, _⟩ | ⟨rfl, _, rfl⟩ <;> rfl
    cases h1 : ops.prepare.poll cx s (env w) with
    | mk p r =>
      obtain ⟨s1, w1⟩ := r
      cases p with
      | pending =>
        obtain ⟨r, st', w', l, d, w'', hd, hdrop, hrun⟩ :=
          drive_preparing ops sched (i + 1) s1 w1 (.preparing heldLocals s1)
            (Or.inl ⟨rfl, by omega⟩)
        refine ⟨r, st', w', l, d, w'', ?_, hdrop, ?_⟩
        · rw [← hd]
          simp only [driveRadio, onWorld, List.map_cons, hpoll]
          simp [pollPrepare, RadioOps.record, h1,
            List.replicate_succ']
        · rw [show i + ((cx, env) :: sched).length = i + 1 + sched.length by simp; omega]
          exact hrun
      | ready u =>
        cases h2 : ops.operate.poll cx ops.operate.init w1 with
        | mk p2 r2 =>
          obtain ⟨s2, w2⟩ := r2
          cases p2 with
          | pending =>
            obtain ⟨r, st', w', l, d, w'', hd, hdrop, hrun⟩ :=
              drive_operating ops i sched 1 s2 w2 (by omega)
            refine ⟨r, st', w', l, d, w'', ?_, hdrop, ?_⟩
            · rw [← hd]
              simp only [driveRadio, onWorld, List.map_cons, hpoll]
              simp [pollPrepare, pollOperate, RadioOps.record, h1, h2]
            · rw [show i + ((cx, env) :: sched).length = i + 1 + sched.length by simp; omega]
              exact hrun
          | ready b =>
            refine ⟨some b, .returned, w2, _, [], w2, ?_, ?_, .completed i 0 b (by simp)⟩
            · simp only [driveRadio, onWorld, List.map_cons, hpoll]
              simp [pollPrepare, pollOperate, RadioOps.record, h1, h2,
                Locals.defuse, Locals.dropAll, Locals.dropOnDrop]
            · simp [dropRadio]

/-- **C42.** For every radio, every schedule of polls and every point at which the future is dropped
(here: after the schedule): neither the polls nor the drop panic; the radio is prepared to the end
before it is operated; the result is that of the radio; the operation is cancelled exactly once, as
the last thing that happens, if the future is dropped after its first poll and before it completed,
and never otherwise. -/
theorem C42_cancelled_iff_abandoned (ops : RadioOps P O W Ω) (sched : List (W × (Ω → Ω))) (w : Ω) :
    ∃ r st w' log atDrop w'',
      driveRadio ops.record (onWorld sched) .unresumed (w, []) = .ok (r, st, (w', log)) ∧
      dropRadio ops.record st (w', log) = .ok (w'', log ++ atDrop) ∧
      RadioRun sched.length r log atDrop := by
  simpa using drive_preparing ops sched 0 ops.prepare.init w .unresumed (Or.inr ⟨rfl, rfl, rfl⟩)

/-- **C42**, in short: counting calls of `cancel_current_opperation` over the whole life of the
future. -/
theorem C42_cancel_count (ops : RadioOps P O W Ω) (sched : List (W × (Ω → Ω))) (w : Ω) :
    ∃ r st w' log atDrop w'',
      driveRadio ops.record (onWorld sched) .unresumed (w, []) = .ok (r, st, (w', log)) ∧
      dropRadio ops.record st (w', log) = .ok (w'', log ++ atDrop) ∧
      (log ++ atDrop).count .cancelled = if r = none ∧ sched ≠ [] then 1 else 0 := by
  obtain ⟨r, st, w', l, d, w'', h1, h2, hrun⟩ := C42_cancelled_iff_abandoned ops sched w
  refine ⟨r, st, w', l, d, w'', h1, h2, ?_⟩
  cases hrun with
  | untouched hn =>
    have : sched = [] := List.length_eq_zero_iff.mp hn
    simp [this]
  | preparing hn =>
    have : sched ≠ [] := by rintro rfl; simp at hn
    simp [this, List.count_append, List.count_replicate]
  | operating i j hj hn =>
    have : sched ≠ [] := by rintro rfl; simp at hn; omega
    simp [this, List.count_append, List.count_replicate, List.count_cons]
  | completed i j b hn => simp [List.count_append, List.count_replicate, List.count_cons]

/-- **C42**, after completion: once a poll returned the result, the future holds nothing more of the
radio: whatever happens afterwards, dropping it leaves the radio alone, and polling it again panics
(as polling any `async fn` after its completion does). -/
theorem C42_after_completion (ops : RadioOps P O W Ω) :
    ∀ (sched : List (W × (Ω → Ω))) (st st' : OpState P O) (w w' : Ω) (b : Bool),
      driveRadio ops sched st w = .ok (some b, st', w') →
      (∀ v, dropRadio ops st' v = .ok v) ∧ ∀ cx v, pollRadio ops cx st' v = .panic
  | [], _, _, _, _, _, h => by cases h
  | (cx, env) :: sched, st, st', w, w', b, h => by
    have key : ∀ (l : Locals) (s : O) (v : Ω) (a : Bool) (s1 : OpState P O) (v1 : Ω),
        pollOperate ops cx l s v = .ok (.ready a, s1, v1) → s1 = .returned := by
      intro l s v a s1 v1 h
      unfold pollOperate at h
      rcases hp : ops.operate.poll cx s v with ⟨_ | r, s2, v2⟩ <;> rw [hp] at h
      · cases h
      · simp only [Locals.defuse, Locals.dropAll, Locals.dropOnDrop] at h
        cases h; rfl
    have key' : ∀ (l : Locals) (s : P) (v : Ω) (a : Bool) (s1 : OpState P O) (v1 : Ω),
        pollPrepare ops cx l s v = .ok (.ready a, s1, v1) → s1 = .returned := by
      intro l s v a s1 v1 h
      unfold pollPrepare at h
      rcases hp : ops.prepare.poll cx s v with ⟨_ | r, s2, v2⟩ <;> rw [hp] at h
      · cases h
      · exact key _ _ _ _ _ _ h
    unfold driveRadio at h
    rcases hp : pollRadio ops cx st (env w) with ⟨_ | a, s1, w1⟩ | _ | _ <;> rw [hp] at h
    · exact C42_after_completion ops sched s1 st' w1 w' b h
    · have hr : s1 = .returned := by
        cases st with
        | unresumed => exact key' _ _ _ _ _ _ hp
        | preparing l s => exact key' _ _ _ _ _ _ hp
        | operating l s => exact key _ _ _ _ _ _ hp
        | returned => cases hp
      cases h
      subst hr
      exact ⟨fun _ => rfl, fun _ _ => rfl⟩
    · cases h
    · cases h

/-- A radio that needs one poll to prepare and whose operation succeeds at its second poll. -/
def exampleOps : RadioOps Nat Nat Unit Unit where
  prepare :=
    { init := 0
      poll := fun _ s w => if 1 ≤ s then (.ready (), s, w) else (.pending, s + 1, w)
      drop := fun _ w => w }
  operate :=
    { init := 0
      poll := fun _ s w => if 1 ≤ s then (.ready true, s, w) else (.pending, s + 1, w)
      drop := fun _ w => w }
  cancel := fun w => w

example : driveRadio exampleOps.record [((), id), ((), id), ((), id)] .unresumed ((), []) =
    .ok (some true, .returned,
      ((), [.preparePending, .prepared, .operatePending, .operated true])) := rfl

example : (do
    let (_, st, w) ← driveRadio exampleOps.record [((), id), ((), id)] .unresumed ((), [])
    dropRadio exampleOps.record st w) = .ok
      ((), [.preparePending, .prepared, .operatePending, .operateDropped, .cancelled]) := rfl

example : ∃ st, driveRadio exampleOps [((), id), ((), id), ((), id)] .unresumed () =
    .ok (some true, st, ()) ∧ pollRadio exampleOps () st () = .panic :=
  ⟨.returned, rfl, (C42_after_completion exampleOps [((), id), ((), id), ((), id)] .unresumed
    .returned () () true rfl).2 () ()⟩

end Dot15d4.Sync
