import Verif.Lemmas.Prog
import Verif.Model.Drops

/-!
# What polls do is an execution
-/

namespace Dot15d4.Csma
open Dot15d4.Sync (Either)

variable {Eff : Type} {Ans : Eff → Type} {α β γ W : Type}

open Prog

/-! ## Polls with drops -/

/-- Without effects of drops, `pollD` is `poll`. -/
theorem pollD_poll (ω : World Ans W) (fuel : Nat) (p : Prog Ans α) (w : W) :
    p.pollD ⟨ω, fun _ w => w⟩ fuel w = p.poll ω fuel w := by
  have hd : ∀ {β : Type} (q : Prog Ans β) (w : W), dropped ⟨ω, fun _ w => w⟩ q w = w := by
    intro β q w
    rw [dropped, dropCalls]
    generalize q.waits = l
    induction l generalizing w with
    | nil => rfl
    | cons e l ih => exact ih w
  induction p generalizing w with
  | pure a => rfl
  | call e k => rfl
  | wait e k => rfl
  | bind p k ihp ihk =>
    rw [pollD, poll, ihp]
    rcases p.poll ω fuel w with ⟨r, w1⟩
    cases r with
    | ready b => exact ihk b w1
    | _ => rfl
  | join p q k ihp ihq =>
    rw [pollD, poll, ihp]
    rcases p.poll ω fuel w with ⟨r, w1⟩
    cases r with
    | ready b => simp only [ihq]; rcases q.poll ω fuel w1 with ⟨_ | _ | _ | _, w2⟩ <;> rfl
    | pending p => simp only [ihq]; rcases q.poll ω fuel w1 with ⟨_ | _ | _ | _, w2⟩ <;> rfl
    | _ => rfl
  | select p q k ihp ihq =>
    rw [pollD, poll, ihp]
    rcases p.poll ω fuel w with ⟨r, w1⟩
    cases r with
    | ready b => simp only [hd]
    | pending p => simp only [ihq, hd]; rcases q.poll ω fuel w1 with ⟨_ | _ | _ | _, w2⟩ <;> rfl
    | _ => rfl
  | loop body s ih =>
    rw [pollD, poll]
    congr 1
    funext s w
    exact ih s w
  | panic => rfl

theorem runD_run (ω : World Ans W) (fuel : Nat) (sched : List (W → W)) (p : Prog Ans α) (w : W) :
    p.runD ⟨ω, fun _ w => w⟩ fuel sched w = p.run ω fuel sched w := by
  induction sched generalizing p w with
  | nil => rfl
  | cons env sched ih =>
    rw [runD, run, pollD_poll]
    rcases p.poll ω fuel (env w) with ⟨r, w1⟩
    cases r with
    | pending p => exact ih p w1
    | _ => rfl

theorem dropCalls_calls (ω : DropWorld Ans W) : ∀ (l : List Eff) (x : W × List (Ev Ans)),
    (dropCalls ω.recordCalls l x).2 = x.2
  | [], _ => rfl
  | e :: l, x => dropCalls_calls ω l (ω.drop e x.1, x.2)

/-! ## Executions -/

/-- What the trace `t` of some polls and their outcome say about the executions of `p`. -/
def Outcome (p : Prog Ans α) (t : List (Ev Ans)) : Res Ans α → Prop
  | .pending p' => Exec p' [] .pending ∧ ∀ t' o, Exec p' t' o → Exec p (t ++ t') o
  | .ready a => Exec p t (.done a)
  | .panicked => Exec p t .panicked
  | .diverged => Exec p t .cut

theorem interleave_append {E : Type} {t1 t2 t1' t2' t' : List E} (h : Interleave t1' t2' t') :
    Interleave (t1 ++ t1') (t2 ++ t2') (t1 ++ (t2 ++ t')) := by
  induction t1 with
  | nil =>
    induction t2 with
    | nil => exact h
    | cons x t2 ih => exact .right ih
  | cons x t1 ih => exact .left ih

theorem interleave_pair {E : Type} (t1 t2 : List E) : Interleave t1 t2 (t1 ++ t2) := by
  have := interleave_append (t1 := t1) (t2 := t2) (Interleave.nil (E := E))
  simpa using this

theorem outcome_pending {p p' : Prog Ans α} {t} (h : Outcome p t (.pending p')) :
    Exec p t .pending := by simpa using h.2 [] .pending h.1

theorem exec_pending_cut {p p' : Prog Ans α} {t} (h : Outcome p t (.pending p')) :
    Exec p t .cut := (outcome_pending h).pending_cut

theorem interleave_self_nil {E : Type} (t : List E) : Interleave t [] t := by
  simpa using interleave_pair t []

theorem pollLoop_outcome {σ : Type} {body : σ → Prog Ans (Sum σ α)}
    {pb : σ → W × List (Ev Ans) → Res Ans (Sum σ α) × (W × List (Ev Ans))}
    (hb : ∀ s w l, ∃ t, ((pb s (w, l)).2).2 = l ++ t ∧ Outcome (body s) t (pb s (w, l)).1)
    (n : Nat) : ∀ s w l, ∃ t, ((pollLoop body pb n s (w, l)).2).2 = l ++ t ∧
      Outcome (.loop body s) t (pollLoop body pb n s (w, l)).1 := by
  induction n with
  | zero => intro s w l; exact ⟨[], by simp [pollLoop], Exec.cut _⟩
  | succ n ih =>
    intro s w l
    obtain ⟨t, ht, ho⟩ := hb s w l
    rcases hp : pb s (w, l) with ⟨r, w', l'⟩
    rw [hp] at ht ho
    simp only at ht
    subst ht
    rw [pollLoop, hp]
    cases r with
    | pending p' =>
      refine ⟨t, rfl, .bindPending ho.1, ?_⟩
      intro t' o he
      cases he with
      | cut => simpa using Exec.loopCut (exec_pending_cut ho)
      | bindCut h => exact .loopCut (ho.2 _ _ h)
      | bindPending h => exact .loopPending (ho.2 _ _ h)
      | bindPanic h => exact .loopPanic (ho.2 _ _ h)
      | @bind _ _ _ _ ta tb b _ h1 h2 =>
        have h1 := ho.2 _ _ h1
        cases b with
        | inl s' => simpa [List.append_assoc] using Exec.loopNext h1 h2
        | inr a =>
          cases h2 with
          | cut => simpa using Exec.loopStop h1
          | pure => simpa using Exec.loopDone h1
    | ready r =>
      cases r with
      | inl s' =>
        obtain ⟨t2, ht2, ho2⟩ := ih s' w' (l ++ t)
        refine ⟨t ++ t2, by simpa using ht2, ?_⟩
        rcases hq : pollLoop body pb n s' (w', l ++ t) with ⟨r2, w2⟩
        rw [hq] at ho2
        simp only [hq] at ho2 ⊢
        cases r2 with
        | pending q =>
          refine ⟨ho2.1, ?_⟩
          intro t' o he
          simpa [List.append_assoc] using Exec.loopNext ho (ho2.2 _ _ he)
        | ready a => exact Exec.loopNext ho ho2
        | panicked => exact Exec.loopNext ho ho2
        | diverged => exact Exec.loopNext ho ho2
      | inr a => exact ⟨t, rfl, .loopDone ho⟩
    | panicked => exact ⟨t, rfl, .loopPanic ho⟩
    | diverged => exact ⟨t, rfl, .loopCut ho⟩

/-- One poll, with drops: its record begins an execution. -/
theorem pollD_outcome (ω : DropWorld Ans W) (fuel : Nat) (p : Prog Ans α) :
    ∀ w l, ∃ t, ((p.pollD ω.recordCalls fuel (w, l)).2).2 = l ++ t ∧
      Outcome p t (p.pollD ω.recordCalls fuel (w, l)).1 := by
  induction p with
  | pure a => intro w l; exact ⟨[], by simp [pollD], .pure a⟩
  | call e k =>
    intro w l
    rcases h : ω.start e w with ⟨_ | r, w'⟩
    · refine ⟨[.start e], by simp [pollD, DropWorld.recordCalls, World.record, h], ?_⟩
      simp only [pollD, DropWorld.recordCalls, World.record, h]
      refine ⟨.waitPending e k, ?_⟩
      intro t' o he
      cases he with
      | cut => exact .callCut e k
      | waitPending => exact .callPending e k
      | wait _ _ r => exact .call e k r
    · refine ⟨[.start e, .ret e r], by simp [pollD, DropWorld.recordCalls, World.record, h], ?_⟩
      simp only [pollD, DropWorld.recordCalls, World.record, h]
      exact .call e k r
  | wait e k =>
    intro w l
    rcases h : ω.poll e w with ⟨_ | r, w'⟩
    · refine ⟨[], by simp [pollD, DropWorld.recordCalls, World.record, h], ?_⟩
      simp only [pollD, DropWorld.recordCalls, World.record, h]
      exact ⟨.waitPending e k, fun t' o he => he⟩
    · refine ⟨[.ret e r], by simp [pollD, DropWorld.recordCalls, World.record, h], ?_⟩
      simp only [pollD, DropWorld.recordCalls, World.record, h]
      exact .wait e k r
  | bind p k ihp ihk =>
    intro w l
    obtain ⟨t, ht, ho⟩ := ihp w l
    rcases hp : p.pollD ω.recordCalls fuel (w, l) with ⟨r, w', l'⟩
    rw [hp] at ht ho
    simp only at ht
    subst ht
    rw [pollD, hp]
    cases r with
    | pending p' =>
      refine ⟨t, rfl, .bindPending ho.1, fun t' o he => ?_⟩
      cases he with
      | cut => simpa using Exec.bindCut (exec_pending_cut ho)
      | bindCut h => exact .bindCut (ho.2 _ _ h)
      | bindPending h => exact .bindPending (ho.2 _ _ h)
      | bindPanic h => exact .bindPanic (ho.2 _ _ h)
      | bind h1 h2 => simpa [List.append_assoc] using Exec.bind (ho.2 _ _ h1) h2
    | ready b =>
      obtain ⟨t2, ht2, ho2⟩ := ihk b w' (l ++ t)
      refine ⟨t ++ t2, by simpa using ht2, ?_⟩
      rcases hq : (k b).pollD ω.recordCalls fuel (w', l ++ t) with ⟨r2, w2⟩
      rw [hq] at ho2
      simp only [hq] at ho2 ⊢
      cases r2 with
      | pending q =>
        refine ⟨ho2.1, ?_⟩
        intro t' o he
        simpa [List.append_assoc] using Exec.bind ho (ho2.2 _ _ he)
      | ready a => exact Exec.bind ho ho2
      | panicked => exact Exec.bind ho ho2
      | diverged => exact Exec.bind ho ho2
    | panicked => exact ⟨t, rfl, .bindPanic ho⟩
    | diverged => exact ⟨t, rfl, .bindCut ho⟩
  | join p q k ihp ihq =>
    intro w l
    obtain ⟨t, ht, ho⟩ := ihp w l
    rcases hp : p.pollD ω.recordCalls fuel (w, l) with ⟨r, w', l'⟩
    rw [hp] at ht ho
    simp only at ht
    subst ht
    rw [pollD, hp]
    cases r with
    | pending p' =>
      obtain ⟨t2, ht2, ho2⟩ := ihq w' (l ++ t)
      rcases hq : q.pollD ω.recordCalls fuel (w', l ++ t) with ⟨r2, w2, l2⟩
      rw [hq] at ht2 ho2
      simp only at ht2
      subst ht2
      refine ⟨t ++ t2, by simp only [hq]; cases r2 <;> simp, ?_⟩
      have hc := exec_pending_cut ho
      simp only [hq]
      cases r2 with
      | pending q' =>
        refine ⟨.joinPending ho.1 ho2.1 .nil, ?_⟩
        intro t' o he
        cases he with
        | cut =>
          simpa using Exec.joinCut hc (exec_pending_cut ho2) (by simp) (by simp)
            (interleave_pair t t2)
        | joinCut h1 h2 n1 n2 hi =>
          rw [List.append_assoc]
          exact .joinCut (ho.2 _ _ h1) (ho2.2 _ _ h2) n1 n2 (interleave_append hi)
        | joinPending h1 h2 hi =>
          rw [List.append_assoc]
          exact .joinPending (ho.2 _ _ h1) (ho2.2 _ _ h2) (interleave_append hi)
        | joinFirst h1 h2 hi =>
          rw [List.append_assoc]
          exact .joinFirst (ho.2 _ _ h1) (ho2.2 _ _ h2) (interleave_append hi)
        | joinSecond h1 h2 hi =>
          rw [List.append_assoc]
          exact .joinSecond (ho.2 _ _ h1) (ho2.2 _ _ h2) (interleave_append hi)
        | joinPanic h1 h2 n hi =>
          rw [List.append_assoc]
          exact .joinPanic (ho.2 _ _ h1) (ho2.2 _ _ h2) n (interleave_append hi)
        | join h1 h2 hi =>
          rw [List.append_assoc]
          exact .join (ho.2 _ _ h1) (ho2.2 _ _ h2) (interleave_append hi)
      | ready c =>
        refine ⟨.joinSecond ho.1 (.pure c) .nil, ?_⟩
        intro t' o he
        cases he with
        | cut =>
          simpa using Exec.joinCut hc ho2 (by simp) (by simp) (interleave_pair t t2)
        | @joinCut _ _ _ _ _ _ _ _ _ _ o2 h1 h2 n1 n2 hi =>
          rw [List.append_assoc]
          have hi' := interleave_append (t1 := t) (t2 := t2) hi
          cases h2 with
          | cut => exact .joinCut (ho.2 _ _ h1) ho2 n1 (by simp) (by simpa using hi')
          | pure => exact .joinCut (ho.2 _ _ h1) ho2 n1 (by simp) (by simpa using hi')
        | joinPending h1 h2 hi => cases h2
        | joinFirst h1 h2 hi => cases h2
        | joinSecond h1 h2 hi =>
          rw [List.append_assoc]
          have hi' := interleave_append (t1 := t) (t2 := t2) hi
          cases h2 with
          | pure => exact .joinSecond (ho.2 _ _ h1) ho2 (by simpa using hi')
        | joinPanic h1 h2 n hi =>
          rw [List.append_assoc]
          have hi' := interleave_append (t1 := t) (t2 := t2) hi
          cases h2 with
          | cut => exact .joinPanic (ho.2 _ _ h1) ho2 (by simpa using n) (by simpa using hi')
          | pure => exact .joinPanic (ho.2 _ _ h1) ho2 (by simpa using n) (by simpa using hi')
        | join h1 h2 hi =>
          rw [List.append_assoc]
          have hi' := interleave_append (t1 := t) (t2 := t2) hi
          cases h2 with
          | pure => exact .join (ho.2 _ _ h1) ho2 (by simpa using hi')
      | panicked => exact .joinPanic hc ho2 (by simp) (interleave_pair t t2)
      | diverged => exact .joinCut hc ho2 (by simp) (by simp) (interleave_pair t t2)
    | ready b =>
      obtain ⟨t2, ht2, ho2⟩ := ihq w' (l ++ t)
      rcases hq : q.pollD ω.recordCalls fuel (w', l ++ t) with ⟨r2, w2, l2⟩
      rw [hq] at ht2 ho2
      simp only at ht2
      subst ht2
      refine ⟨t ++ t2, by simp only [hq]; cases r2 <;> simp, ?_⟩
      simp only [hq]
      cases r2 with
      | pending q' =>
        refine ⟨.joinFirst (.pure b) ho2.1 .nil, ?_⟩
        intro t' o he
        cases he with
        | cut =>
          simpa using Exec.joinCut ho (exec_pending_cut ho2) (by simp) (by simp)
            (interleave_pair t t2)
        | joinCut h1 h2 n1 n2 hi =>
          rw [List.append_assoc]
          have hi' := interleave_append (t1 := t) (t2 := t2) hi
          cases h1 with
          | cut => exact .joinCut ho (ho2.2 _ _ h2) (by simp) n2 (by simpa using hi')
          | pure => exact .joinCut ho (ho2.2 _ _ h2) (by simp) n2 (by simpa using hi')
        | joinPending h1 h2 hi => cases h1
        | joinSecond h1 h2 hi => cases h1
        | joinFirst h1 h2 hi =>
          rw [List.append_assoc]
          have hi' := interleave_append (t1 := t) (t2 := t2) hi
          cases h1 with
          | pure => exact .joinFirst ho (ho2.2 _ _ h2) (by simpa using hi')
        | joinPanic h1 h2 n hi =>
          rw [List.append_assoc]
          have hi' := interleave_append (t1 := t) (t2 := t2) hi
          cases h1 with
          | cut => exact .joinPanic ho (ho2.2 _ _ h2) (by simpa using n) (by simpa using hi')
          | pure => exact .joinPanic ho (ho2.2 _ _ h2) (by simpa using n) (by simpa using hi')
        | join h1 h2 hi =>
          rw [List.append_assoc]
          have hi' := interleave_append (t1 := t) (t2 := t2) hi
          cases h1 with
          | pure => exact .join ho (ho2.2 _ _ h2) (by simpa using hi')
      | ready c => exact .join ho ho2 (interleave_pair t t2)
      | panicked => exact .joinPanic ho ho2 (by simp) (interleave_pair t t2)
      | diverged => exact .joinCut ho ho2 (by simp) (by simp) (interleave_pair t t2)
    | panicked =>
      exact ⟨t, rfl, .joinPanic ho (.cut q) (by simp) (interleave_self_nil t)⟩
    | diverged =>
      exact ⟨t, rfl, .joinCut ho (.cut q) (by simp) (by simp) (interleave_self_nil t)⟩
  | select p q k ihp ihq =>
    intro w l
    obtain ⟨t, ht, ho⟩ := ihp w l
    rcases hp : p.pollD ω.recordCalls fuel (w, l) with ⟨r, w', l'⟩
    rw [hp] at ht ho
    simp only at ht
    subst ht
    rw [pollD, hp]
    cases r with
    | pending p' =>
      obtain ⟨t2, ht2, ho2⟩ := ihq w' (l ++ t)
      rcases hq : q.pollD ω.recordCalls fuel (w', l ++ t) with ⟨r2, w2, l2⟩
      rw [hq] at ht2 ho2
      simp only at ht2
      subst ht2
      refine ⟨t ++ t2, by simp only [hq]; cases r2 <;> simp [dropped, dropCalls_calls], ?_⟩
      have hc := exec_pending_cut ho
      simp only [hq]
      cases r2 with
      | pending q' =>
        refine ⟨.selectPending ho.1 ho2.1 .nil, ?_⟩
        intro t' o he
        cases he with
        | cut => simpa using Exec.selectCut hc (exec_pending_cut ho2) (interleave_pair t t2)
        | selectCut h1 h2 hi =>
          rw [List.append_assoc]
          exact .selectCut (ho.2 _ _ h1) (ho2.2 _ _ h2) (interleave_append hi)
        | selectPending h1 h2 hi =>
          rw [List.append_assoc]
          exact .selectPending (ho.2 _ _ h1) (ho2.2 _ _ h2) (interleave_append hi)
        | selectPanic h1 h2 n hi =>
          rw [List.append_assoc]
          exact .selectPanic (ho.2 _ _ h1) (ho2.2 _ _ h2) n (interleave_append hi)
        | selectFirst0 h1 =>
          rw [List.append_assoc]
          refine .selectFirst (ho.2 _ _ h1) (outcome_pending ho2) ?_
          simpa using interleave_append (t1 := t) (t2 := t2) (interleave_self_nil t')
        | selectFirst h1 h2 hi =>
          rw [List.append_assoc]
          exact .selectFirst (ho.2 _ _ h1) (ho2.2 _ _ h2) (interleave_append hi)
        | selectSecond h1 h2 hi =>
          rw [List.append_assoc]
          exact .selectSecond (ho.2 _ _ h1) (ho2.2 _ _ h2) (interleave_append hi)
      | ready c => exact .selectSecond (outcome_pending ho) ho2 (interleave_pair t t2)
      | panicked => exact .selectPanic hc ho2 (by simp) (interleave_pair t t2)
      | diverged => exact .selectCut hc ho2 (interleave_pair t t2)
    | ready b => exact ⟨t, by simp [dropped, dropCalls_calls], .selectFirst0 ho⟩
    | panicked =>
      exact ⟨t, rfl, .selectPanic ho (.cut q) (by simp) (interleave_self_nil t)⟩
    | diverged => exact ⟨t, rfl, .selectCut ho (.cut q) (interleave_self_nil t)⟩
  | loop body s ih =>
    intro w l
    exact pollLoop_outcome (fun s w l => ih s w l) fuel s w l
  | panic => intro w l; exact ⟨[], by simp [pollD], Exec.panic⟩

/-- One poll: its record begins an execution. -/
theorem poll_outcome (ω : World Ans W) (fuel : Nat) (p : Prog Ans α) :
    ∀ w l, ∃ t, ((p.poll ω.record fuel (w, l)).2).2 = l ++ t ∧
      Outcome p t (p.poll ω.record fuel (w, l)).1 := by
  intro w l
  have h := pollD_outcome ⟨ω, fun _ w => w⟩ fuel p w l
  have e : (DropWorld.recordCalls ⟨ω, fun _ w => w⟩ : DropWorld Ans (W × List (Ev Ans))) =
    ⟨ω.record, fun _ w => w⟩ := rfl
  rw [e, pollD_poll] at h
  exact h

/-- The record of any number of polls, with drops, begins an execution. -/
theorem runD_outcome (ω : DropWorld Ans W) (fuel : Nat) (sched : List (W → W)) :
    ∀ (p : Prog Ans α) w l, sched ≠ [] → ∃ t,
      ((p.runD ω.recordCalls fuel (sched.map fun env x => (env x.1, x.2)) (w, l)).2).2 = l ++ t ∧
      Outcome p t (p.runD ω.recordCalls fuel (sched.map fun env x => (env x.1, x.2)) (w, l)).1 := by
  induction sched with
  | nil => intro p w l h; exact absurd rfl h
  | cons env sched ih =>
    intro p w l _
    obtain ⟨t, ht, ho⟩ := pollD_outcome ω fuel p (env w) l
    simp only [List.map_cons, runD]
    rcases hp : p.pollD ω.recordCalls fuel (env w, l) with ⟨r, w', l'⟩
    rw [hp] at ht ho
    simp only at ht
    subst ht
    cases r with
    | pending p' =>
      by_cases hs : sched = []
      · subst hs
        exact ⟨t, rfl, ho⟩
      obtain ⟨t2, ht2, ho2⟩ := ih p' w' (l ++ t) hs
      refine ⟨t ++ t2, by simpa using ht2, ?_⟩
      rcases hq : p'.runD ω.recordCalls fuel (sched.map fun env x => (env x.1, x.2)) (w', l ++ t)
        with ⟨r2, w2⟩
      rw [hq] at ho2
      simp only [hq] at ho2 ⊢
      cases r2 with
      | pending q =>
        exact ⟨ho2.1, fun t' o he => by rw [List.append_assoc]; exact ho.2 _ _ (ho2.2 _ _ he)⟩
      | ready a => exact ho.2 _ _ ho2
      | panicked => exact ho.2 _ _ ho2
      | diverged => exact ho.2 _ _ ho2
    | ready a => exact ⟨t, rfl, ho⟩
    | panicked => exact ⟨t, rfl, ho⟩
    | diverged => exact ⟨t, rfl, ho⟩

/-- The record of any number of polls begins an execution. -/
theorem run_outcome (ω : World Ans W) (fuel : Nat) (sched : List (W → W)) :
    ∀ (p : Prog Ans α) w l, sched ≠ [] → ∃ t,
      ((p.run ω.record fuel (sched.map fun env x => (env x.1, x.2)) (w, l)).2).2 = l ++ t ∧
      Outcome p t (p.run ω.record fuel (sched.map fun env x => (env x.1, x.2)) (w, l)).1 := by
  intro p w l hs
  have h := runD_outcome ⟨ω, fun _ w => w⟩ fuel sched p w l hs
  have e : (DropWorld.recordCalls ⟨ω, fun _ w => w⟩ : DropWorld Ans (W × List (Ev Ans))) =
    ⟨ω.record, fun _ w => w⟩ := rfl
  rw [e, runD_run] at h
  exact h

/-- Whatever the world answers and however often it is polled, the record of a program's calls is
one of its executions. -/
theorem run_exec (ω : World Ans W) (fuel : Nat) (sched : List (W → W)) (p : Prog Ans α) (w : W) :
    ∃ o, Exec p ((p.run ω.record fuel (sched.map fun env x => (env x.1, x.2)) (w, [])).2).2 o ∧
      match (p.run ω.record fuel (sched.map fun env x => (env x.1, x.2)) (w, [])).1 with
      | .pending _ => sched = [] ∨ o = .pending
      | .ready a => o = .done a
      | .panicked => o = .panicked
      | .diverged => o = .cut := by
  by_cases hs : sched = []
  · subst hs
    exact ⟨.cut, by simpa [run] using Exec.cut p, Or.inl rfl⟩
  obtain ⟨t, ht, ho⟩ := run_outcome ω fuel sched p w [] hs
  revert ht ho
  generalize p.run ω.record fuel (sched.map fun env x => (env x.1, x.2)) (w, []) = x
  obtain ⟨r, w', l'⟩ := x
  intro ht ho
  simp only [List.nil_append] at ht
  subst ht
  cases r with
  | pending q => exact ⟨.pending, outcome_pending ho, Or.inr rfl⟩
  | ready a => exact ⟨_, ho, rfl⟩
  | panicked => exact ⟨_, ho, rfl⟩
  | diverged => exact ⟨_, ho, rfl⟩

/-- With drops: whatever the world answers and however often it is polled, the record of a program's calls is
one of its executions. -/
theorem runD_exec (ω : DropWorld Ans W) (fuel : Nat) (sched : List (W → W)) (p : Prog Ans α) (w : W) :
    ∃ o, Exec p ((p.runD ω.recordCalls fuel (sched.map fun env x => (env x.1, x.2)) (w, [])).2).2 o ∧
      match (p.runD ω.recordCalls fuel (sched.map fun env x => (env x.1, x.2)) (w, [])).1 with
      | .pending _ => sched = [] ∨ o = .pending
      | .ready a => o = .done a
      | .panicked => o = .panicked
      | .diverged => o = .cut := by
  by_cases hs : sched = []
  · subst hs
    exact ⟨.cut, by simpa [runD] using Exec.cut p, Or.inl rfl⟩
  obtain ⟨t, ht, ho⟩ := runD_outcome ω fuel sched p w [] hs
  revert ht ho
  generalize p.runD ω.recordCalls fuel (sched.map fun env x => (env x.1, x.2)) (w, []) = x
  obtain ⟨r, w', l'⟩ := x
  intro ht ho
  simp only [List.nil_append] at ht
  subst ht
  cases r with
  | pending q => exact ⟨.pending, outcome_pending ho, Or.inr rfl⟩
  | ready a => exact ⟨_, ho, rfl⟩
  | panicked => exact ⟨_, ho, rfl⟩
  | diverged => exact ⟨_, ho, rfl⟩

end Dot15d4.Csma
