import Verif.Lemmas.Poll
import Verif.Spec.Protocol

/-!
# Protocols

A protocol is an automaton over the entries of a record; `none` means the entry violates it.
`Keeps step s p Q W`: started in the state `s` of the protocol, `p` keeps to it in every execution
(also in those that panic); where it waits, the state satisfies `W`, and when it returns `a`, `Q a`.
-/

namespace Dot15d4.Csma
open Dot15d4.Sync (Either)

variable {Eff : Type} {Ans : Eff → Type} {α β γ σ S E W : Type}

theorem walk_append (step : S → E → Option S) (s : S) (l l' : List E) :
    walk step s (l ++ l') = (walk step s l).bind fun s => walk step s l' := by
  induction l generalizing s with
  | nil => rfl
  | cons e l ih =>
    simp only [List.cons_append, walk]
    cases step s e with
    | none => rfl
    | some s' => exact ih s'

theorem walk_singleton (step : S → E → Option S) (s : S) (e : E) : walk step s [e] = step s e := by
  simp only [walk]
  cases step s e <;> rfl

theorem walk_prefix {step : S → E → Option S} {s : S} {l l' : List E} (h : l <+: l')
    (hw : walk step s l' ≠ none) : walk step s l ≠ none := by
  obtain ⟨r, rfl⟩ := h
  intro e
  rw [walk_append, e] at hw
  exact hw rfl

/-- Entries the protocol does not see can be interleaved anywhere. -/
theorem walk_interleave_left {step : S → E → Option S} {t1 t2 t : List E}
    (h : Interleave t1 t2 t) (h2 : ∀ x ∈ t2, ∀ s, step s x = some s) (s : S) :
    walk step s t = walk step s t1 := by
  induction h generalizing s with
  | nil => rfl
  | @left x t1 t2 t _ ih =>
    simp only [walk]
    cases step s x with
    | none => rfl
    | some s' => exact ih h2 s'
  | @right x t1 t2 t _ ih =>
    simp only [walk, h2 x (by simp), Option.bind_some]
    exact ih (fun y hy => h2 y (by simp [hy])) s

theorem interleave_comm {t1 t2 t : List E} (h : Interleave t1 t2 t) : Interleave t2 t1 t := by
  induction h with
  | nil => exact .nil
  | left _ ih => exact .right ih
  | right _ ih => exact .left ih

def Keeps (step : S → Ev Ans → Option S) (s : S) (p : Prog Ans α) (Q : α → S → Prop)
    (W : S → Prop) : Prop :=
  ∀ t o, Exec p t o → ∃ s', walk step s t = some s' ∧ match o with
    | .done a => Q a s'
    | .pending => W s'
    | _ => True

variable {step : S → Ev Ans → Option S} {s : S} {W W' : S → Prop}

theorem Keeps.conseq {p : Prog Ans α} {Q Q' : α → S → Prop} (h : Keeps step s p Q W)
    (hQ : ∀ a s, Q a s → Q' a s) (hW : ∀ s, W s → W' s) : Keeps step s p Q' W' := by
  intro t o he
  obtain ⟨s', h1, h2⟩ := h t o he
  refine ⟨s', h1, ?_⟩
  cases o with
  | cut => trivial
  | pending => exact hW _ h2
  | done a => exact hQ _ _ h2
  | panicked => trivial

theorem Keeps.pure {a : α} {Q : α → S → Prop} (h : Q a s) : Keeps step s (.pure a) Q W := by
  intro t o he
  cases he with
  | cut => exact ⟨s, rfl, trivial⟩
  | pure => exact ⟨s, rfl, h⟩

theorem Keeps.panic {Q : α → S → Prop} : Keeps step s (.panic) Q W := by
  intro t o he
  cases he <;> exact ⟨s, rfl, trivial⟩

theorem Keeps.lift {x : Out α} {Q : α → S → Prop} (h : ∀ a, x = .ok a → Q a s) :
    Keeps step s (Prog.lift x) Q W := by
  cases x with
  | ok a => exact .pure (h a rfl)
  | err => exact .panic
  | panic => exact .panic

theorem Keeps.call {e : Eff} {k : Ans e → α} {Q : α → S → Prop} {s1 : S}
    (h1 : step s (.start e) = some s1) (hw : W s1)
    (h2 : ∀ r, ∃ s2, step s1 (.ret e r) = some s2 ∧ Q (k r) s2) :
    Keeps step s (.call e k) Q W := by
  intro t o he
  cases he with
  | cut => exact ⟨s, rfl, trivial⟩
  | callCut => exact ⟨s1, by rw [walk_singleton, h1], trivial⟩
  | callPending => exact ⟨s1, by rw [walk_singleton, h1], hw⟩
  | call _ _ r =>
    obtain ⟨s2, e2, hq⟩ := h2 r
    exact ⟨s2, by simp [walk, h1, e2], hq⟩

theorem Keeps.await {e : Eff} {Q : Ans e → S → Prop} {s1 : S}
    (h1 : step s (.start e) = some s1) (hw : W s1)
    (h2 : ∀ r, ∃ s2, step s1 (.ret e r) = some s2 ∧ Q r s2) :
    Keeps step s (Prog.await e) Q W := Keeps.call h1 hw h2

theorem Keeps.bind {p : Prog Ans β} {k : β → Prog Ans α} {R : β → S → Prop} {Q : α → S → Prop}
    (hp : Keeps step s p R W) (hk : ∀ b s', R b s' → Keeps step s' (k b) Q W) :
    Keeps step s (.bind p k) Q W := by
  intro t o he
  cases he with
  | cut => exact ⟨s, rfl, trivial⟩
  | bindCut h => obtain ⟨s', h1, -⟩ := hp _ _ h; exact ⟨s', h1, trivial⟩
  | bindPending h => obtain ⟨s', h1, h2⟩ := hp _ _ h; exact ⟨s', h1, h2⟩
  | bindPanic h => obtain ⟨s', h1, -⟩ := hp _ _ h; exact ⟨s', h1, trivial⟩
  | bind h h' =>
    obtain ⟨s', h1, h2⟩ := hp _ _ h
    obtain ⟨s'', h3, h4⟩ := hk _ _ h2 _ _ h'
    exact ⟨s'', by rw [walk_append, h1]; exact h3, h4⟩

theorem Keeps.loop {body : σ → Prog Ans (Sum σ α)} {I : σ → S → Prop} {Q : α → S → Prop} {x : σ}
    (hx : I x s)
    (hb : ∀ x s, I x s → Keeps step s (body x) (fun r s' => match r with
      | .inl x => I x s'
      | .inr a => Q a s') W) :
    Keeps step s (.loop body x) Q W := by
  have key : ∀ {α' : Type} (p : Prog Ans α') t (o : Fin α'), Exec p t o →
      ∀ (hα : α' = α) (x : σ) (s : S), HEq p (Prog.loop body x) → I x s →
        ∃ s', walk step s t = some s' ∧ match (hα ▸ o : Fin α) with
          | .done a => Q a s'
          | .pending => W s'
          | _ => True := by
    intro α' p t o he
    induction he with
    | cut => rintro rfl x s - -; exact ⟨s, rfl, trivial⟩
    | loopCut h ih =>
      rintro rfl x s hp hI
      cases hp
      obtain ⟨s', h1, -⟩ := hb x s hI _ _ h
      exact ⟨s', h1, trivial⟩
    | loopPending h ih =>
      rintro rfl x s hp hI
      cases hp
      obtain ⟨s', h1, h2⟩ := hb x s hI _ _ h
      exact ⟨s', h1, h2⟩
    | loopStop h ih =>
      rintro rfl x s hp hI
      cases hp
      obtain ⟨s', h1, h2⟩ := hb x s hI _ _ h
      exact ⟨s', h1, trivial⟩
    | loopPanic h ih =>
      rintro rfl x s hp hI
      cases hp
      obtain ⟨s', h1, h2⟩ := hb x s hI _ _ h
      exact ⟨s', h1, trivial⟩
    | loopDone h ih =>
      rintro rfl x s hp hI
      cases hp
      obtain ⟨s', h1, h2⟩ := hb x s hI _ _ h
      exact ⟨s', h1, h2⟩
    | loopNext h h' ih ih' =>
      rintro rfl x s hp hI
      cases hp
      obtain ⟨s', h1, h2⟩ := hb x s hI _ _ h
      obtain ⟨s'', h3, h4⟩ := ih' rfl _ s' HEq.rfl h2
      exact ⟨s'', by rw [walk_append, h1]; exact h3, h4⟩
    | _ => rintro rfl x s hp -; cases hp
  intro t o he
  exact key _ t o he rfl x s HEq.rfl hx

/-- A program whose calls the protocol does not see. -/
def Unseen (step : S → Ev Ans → Option S) (p : Prog Ans α) : Prop :=
  p.Only fun e => ∀ s, step s (.start e) = some s ∧ ∀ r, step s (.ret e r) = some s

theorem Unseen.exec {p : Prog Ans α} (h : Unseen step p) {t : List (Ev Ans)} {o : Fin α}
    (he : Exec p t o) : ∀ x ∈ t, ∀ s, step s x = some s := by
  intro x hx s
  have := he.only h x hx
  cases x with
  | start e => exact (this s).1
  | ret e r => exact (this s).2 r

theorem walk_unseen {t : List E} {step : S → E → Option S}
    (h : ∀ x ∈ t, ∀ s, step s x = some s) (s : S) : walk step s t = some s := by
  induction t with
  | nil => rfl
  | cons x t ih =>
    rw [walk, h x (by simp), Option.bind_some]
    exact ih fun y hy => h y (by simp [hy])

theorem Unseen.keeps {p : Prog Ans α} (h : Unseen step p) {Q : α → S → Prop} (hQ : ∀ a, Q a s)
    (hW : W s) : Keeps step s p Q W := by
  intro t o he
  refine ⟨s, walk_unseen (h.exec he) s, ?_⟩
  cases o with
  | cut => trivial
  | pending => exact hW
  | done a => exact hQ a
  | panicked => trivial

/-- A join with a program the protocol does not see. -/
theorem Keeps.join_left {p : Prog Ans β} {q : Prog Ans γ} {k : β → γ → α} {Q : β → S → Prop}
    {Q' : α → S → Prop} (hp : Keeps step s p Q W) (hq : Unseen step q)
    (hk : ∀ b c s', Q b s' → Q' (k b c) s') (hW : ∀ b s', Q b s' → W s') :
    Keeps step s (.join p q k) Q' W := by
  intro t o he
  cases he with
  | cut => exact ⟨s, rfl, trivial⟩
  | joinCut h1 h2 _ _ hi =>
    obtain ⟨s', e1, -⟩ := hp _ _ h1
    exact ⟨s', by rw [walk_interleave_left hi (hq.exec h2), e1], trivial⟩
  | joinPending h1 h2 hi =>
    obtain ⟨s', e1, e2⟩ := hp _ _ h1
    exact ⟨s', by rw [walk_interleave_left hi (hq.exec h2), e1], e2⟩
  | joinFirst h1 h2 hi =>
    obtain ⟨s', e1, e2⟩ := hp _ _ h1
    exact ⟨s', by rw [walk_interleave_left hi (hq.exec h2), e1], hW _ _ e2⟩
  | joinSecond h1 h2 hi =>
    obtain ⟨s', e1, e2⟩ := hp _ _ h1
    exact ⟨s', by rw [walk_interleave_left hi (hq.exec h2), e1], e2⟩
  | joinPanic h1 h2 _ hi =>
    obtain ⟨s', e1, e2⟩ := hp _ _ h1
    exact ⟨s', by rw [walk_interleave_left hi (hq.exec h2), e1], trivial⟩
  | join h1 h2 hi =>
    obtain ⟨s', e1, e2⟩ := hp _ _ h1
    exact ⟨s', by rw [walk_interleave_left hi (hq.exec h2), e1], hk _ _ _ e2⟩

/-- A select with a program the protocol does not see. -/
theorem Keeps.select_left {p : Prog Ans β} {q : Prog Ans γ} {k : Either β γ → α}
    {Q : β → S → Prop} {Q' : α → S → Prop} (hp : Keeps step s p Q W) (hq : Unseen step q)
    (h1 : ∀ b s', Q b s' → Q' (k (.first b)) s') (h2 : ∀ c s', W s' → Q' (k (.second c)) s') :
    Keeps step s (.select p q k) Q' W := by
  intro t o he
  cases he with
  | cut => exact ⟨s, rfl, trivial⟩
  | selectCut h1 h2 hi =>
    obtain ⟨s', e1, e2⟩ := hp _ _ h1
    exact ⟨s', by rw [walk_interleave_left hi (hq.exec h2), e1], trivial⟩
  | selectPanic h1 h2 _ hi =>
    obtain ⟨s', e1, e2⟩ := hp _ _ h1
    exact ⟨s', by rw [walk_interleave_left hi (hq.exec h2), e1], trivial⟩
  | selectPending h1 h2 hi =>
    obtain ⟨s', e1, e2⟩ := hp _ _ h1
    exact ⟨s', by rw [walk_interleave_left hi (hq.exec h2), e1], e2⟩
  | selectFirst0 e =>
    obtain ⟨s', e1, e2⟩ := hp _ _ e
    exact ⟨s', e1, h1 _ _ e2⟩
  | selectFirst e e' hi =>
    obtain ⟨s', e1, e2⟩ := hp _ _ e
    exact ⟨s', by rw [walk_interleave_left hi (hq.exec e'), e1], h1 _ _ e2⟩
  | selectSecond e e' hi =>
    obtain ⟨s', e1, e2⟩ := hp _ _ e
    exact ⟨s', by rw [walk_interleave_left hi (hq.exec e'), e1], h2 _ _ e2⟩

/-- The same with the branches in the other order. -/
theorem Keeps.select_right {p : Prog Ans β} {q : Prog Ans γ} {k : Either β γ → α}
    {Q : γ → S → Prop} {Q' : α → S → Prop} (hq : Keeps step s q Q W) (hp : Unseen step p)
    (h0 : ∀ b, Q' (k (.first b)) s)
    (h1 : ∀ b s', W s' → Q' (k (.first b)) s') (h2 : ∀ c s', Q c s' → Q' (k (.second c)) s') :
    Keeps step s (.select p q k) Q' W := by
  intro t o he
  cases he with
  | cut => exact ⟨s, rfl, trivial⟩
  | selectCut e e' hi =>
    obtain ⟨s', e1, e2⟩ := hq _ _ e'
    exact ⟨s', by rw [walk_interleave_left (interleave_comm hi) (hp.exec e), e1], trivial⟩
  | selectPanic e e' _ hi =>
    obtain ⟨s', e1, e2⟩ := hq _ _ e'
    exact ⟨s', by rw [walk_interleave_left (interleave_comm hi) (hp.exec e), e1], trivial⟩
  | selectPending e e' hi =>
    obtain ⟨s', e1, e2⟩ := hq _ _ e'
    exact ⟨s', by rw [walk_interleave_left (interleave_comm hi) (hp.exec e), e1], e2⟩
  | selectFirst0 e => exact ⟨s, walk_unseen (hp.exec e) s, h0 _⟩
  | selectFirst e e' hi =>
    obtain ⟨s', e1, e2⟩ := hq _ _ e'
    exact ⟨s', by rw [walk_interleave_left (interleave_comm hi) (hp.exec e), e1], h1 _ _ e2⟩
  | selectSecond e e' hi =>
    obtain ⟨s', e1, e2⟩ := hq _ _ e'
    exact ⟨s', by rw [walk_interleave_left (interleave_comm hi) (hp.exec e), e1], h2 _ _ e2⟩

/-! ## Invariants of a world -/

open Prog

variable {Ω : Type}

theorem pollLoop_inv {body : σ → Prog Ans (Sum σ α)} {J : Ω → Prop}
    {pb : σ → Ω → Res Ans (Sum σ α) × Ω} (hb : ∀ s w, J w → J (pb s w).2) (n : Nat) :
    ∀ s w, J w → J (pollLoop body pb n s w).2 := by
  induction n with
  | zero => intro s w h; exact h
  | succ n ih =>
    intro s w h
    have := hb s w h
    rw [pollLoop]
    rcases hp : pb s w with ⟨r, w'⟩
    rw [hp] at this
    cases r with
    | pending p => exact this
    | ready r =>
      cases r with
      | inl s' => exact ih s' w' this
      | inr a => exact this
    | panicked => exact this
    | diverged => exact this

/-- What every answer preserves, every poll preserves. -/
theorem poll_inv {ω : World Ans Ω} {J : Ω → Prop} (hs : ∀ e w, J w → J (ω.start e w).2)
    (hp : ∀ e w, J w → J (ω.poll e w).2) (fuel : Nat) (p : Prog Ans α) :
    ∀ w, J w → J (p.poll ω fuel w).2 := by
  induction p with
  | pure a => intro w h; exact h
  | call e k =>
    intro w h
    have := hs e w h
    rw [poll]
    rcases hq : ω.start e w with ⟨_ | r, w'⟩ <;> (rw [hq] at this; exact this)
  | wait e k =>
    intro w h
    have := hp e w h
    rw [poll]
    rcases hq : ω.poll e w with ⟨_ | r, w'⟩ <;> (rw [hq] at this; exact this)
  | bind p k ihp ihk =>
    intro w h
    have := ihp w h
    rw [poll]
    rcases hq : p.poll ω fuel w with ⟨r, w'⟩
    rw [hq] at this
    cases r with
    | ready b => exact ihk b w' this
    | pending p => exact this
    | panicked => exact this
    | diverged => exact this
  | join p q k ihp ihq =>
    intro w h
    have := ihp w h
    rw [poll]
    rcases hp : p.poll ω fuel w with ⟨r, w'⟩
    rw [hp] at this
    cases r with
    | ready b =>
      have h2 := ihq w' this
      rcases hq : q.poll ω fuel w' with ⟨r2, w2⟩
      rw [hq] at h2
      simp only [hq]
      cases r2 <;> exact h2
    | pending p =>
      have h2 := ihq w' this
      rcases hq : q.poll ω fuel w' with ⟨r2, w2⟩
      rw [hq] at h2
      simp only [hq]
      cases r2 <;> exact h2
    | panicked => exact this
    | diverged => exact this
  | select p q k ihp ihq =>
    intro w h
    have := ihp w h
    rw [poll]
    rcases hp : p.poll ω fuel w with ⟨r, w'⟩
    rw [hp] at this
    cases r with
    | ready b => exact this
    | pending p =>
      have h2 := ihq w' this
      rcases hq : q.poll ω fuel w' with ⟨r2, w2⟩
      rw [hq] at h2
      simp only [hq]
      cases r2 <;> exact h2
    | panicked => exact this
    | diverged => exact this
  | loop body s ih => intro w h; exact pollLoop_inv (fun s w hw => ih s w hw) fuel s w h
  | panic => intro w h; exact h

theorem run_inv {ω : World Ans Ω} {J : Ω → Prop} (hs : ∀ e w, J w → J (ω.start e w).2)
    (hp : ∀ e w, J w → J (ω.poll e w).2) (fuel : Nat) (sched : List (Ω → Ω))
    (henv : ∀ env ∈ sched, ∀ w, J w → J (env w)) :
    ∀ (p : Prog Ans α) w, J w → J (p.run ω fuel sched w).2 := by
  induction sched with
  | nil => intro p w h; exact h
  | cons env sched ih =>
    intro p w h
    have := poll_inv hs hp fuel p (env w) (henv env (by simp) w h)
    rw [run]
    rcases hq : p.poll ω fuel (env w) with ⟨r, w'⟩
    rw [hq] at this
    cases r with
    | pending p => exact ih (fun e he => henv e (by simp [he])) p w' this
    | ready a => exact this
    | panicked => exact this
    | diverged => exact this

end Dot15d4.Csma
