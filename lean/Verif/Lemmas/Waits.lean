import Verif.Lemmas.Protocol
import Verif.Lemmas.Poll
import Verif.Spec.CsmaFair

/-!
# What a program waits for between two polls
-/

namespace Dot15d4.Csma
open Dot15d4.Sync (Either)

variable {Eff : Type} {Ans : Eff → Type} {α β γ σ W : Type}

open Prog

theorem Prog.Only.mem_waits {S : Eff → Prop} {p : Prog Ans α} :
    p.Only S → ∀ e ∈ p.waits, S e := by
  induction p with
  | pure a => intro _ e he; cases he
  | call e k => intro _ e he; cases he
  | wait e k =>
    intro h x hx
    rw [waits, List.mem_singleton] at hx
    subst hx
    exact h
  | bind p k ihp _ => exact fun h => ihp h.1
  | join p q k ihp ihq =>
    intro h e he
    rcases List.mem_append.1 he with he | he
    · exact ihp h.1 e he
    · exact ihq h.2 e he
  | select p q k ihp ihq =>
    intro h e he
    rcases List.mem_append.1 he with he | he
    · exact ihp h.1 e he
    · exact ihq h.2 e he
  | loop body s _ => intro _ e he; cases he
  | panic => intro _ e he; cases he

/-- A property of programs that polls of their parts cannot leave holds of what polls leave.  `Pd`
relates a program, what a pending poll of it leaves, and the world then. -/
theorem pollLoop_pending {body : σ → Prog Ans (Sum σ α)} {Pd : Prog Ans α → W → Prop}
    {pb : σ → W → Res Ans (Sum σ α) × W}
    (hb : ∀ s w q w', pb s w = (.pending q, w') → Pd (.bind q (again body)) w') (n : Nat) :
    ∀ s w q w', pollLoop body pb n s w = (.pending q, w') → Pd q w' := by
  induction n with
  | zero => intro s w q w' h; cases h
  | succ n ih =>
    intro s w q w' h
    rw [pollLoop] at h
    rcases hp : pb s w with ⟨r, w1⟩
    rw [hp] at h
    cases r with
    | pending p => cases h; exact hb s w p _ hp
    | ready r =>
      cases r with
      | inl s' => exact ih s' w1 q w' h
      | inr a => cases h
    | panicked => cases h
    | diverged => cases h

/-- What remains after a pending poll makes no new kinds of calls, and waits for something. -/
theorem poll_pending (ω : World Ans W) (fuel : Nat) (p : Prog Ans α) :
    ∀ w q w', p.poll ω fuel w = (.pending q, w') →
      q.waits ≠ [] ∧ ∀ S : Eff → Prop, p.Only S → q.Only S := by
  induction p with
  | pure a => intro w q w' h; cases h
  | call e k =>
    intro w q w' h
    rw [poll] at h
    rcases hs : ω.start e w with ⟨_ | r, w1⟩ <;> rw [hs] at h <;> cases h
    exact ⟨by simp [waits], fun S hS => hS⟩
  | wait e k =>
    intro w q w' h
    rw [poll] at h
    rcases hs : ω.poll e w with ⟨_ | r, w1⟩ <;> rw [hs] at h <;> cases h
    exact ⟨by simp [waits], fun S hS => hS⟩
  | bind p k ihp ihk =>
    intro w q w' h
    rw [poll] at h
    rcases hp : p.poll ω fuel w with ⟨r, w1⟩
    rw [hp] at h
    cases r with
    | ready b =>
      obtain ⟨h1, h2⟩ := ihk b w1 q w' h
      exact ⟨h1, fun S hS => h2 S (hS.2 b)⟩
    | pending p' =>
      cases h
      obtain ⟨h1, h2⟩ := ihp w p' _ hp
      exact ⟨h1, fun S hS => ⟨h2 S hS.1, hS.2⟩⟩
    | panicked => cases h
    | diverged => cases h
  | join p q k ihp ihq =>
    intro w q' w' h
    rw [poll] at h
    rcases hp : p.poll ω fuel w with ⟨r, w1⟩
    rw [hp] at h
    cases r with
    | ready b =>
      rcases hq : q.poll ω fuel w1 with ⟨r2, w2⟩
      simp only [hq] at h
      cases r2 <;> cases h
      obtain ⟨h1, h2⟩ := ihq w1 _ _ hq
      exact ⟨by simp [waits, h1], fun S hS => ⟨trivial, h2 S hS.2⟩⟩
    | pending p' =>
      obtain ⟨h1, h2⟩ := ihp w p' _ hp
      rcases hq : q.poll ω fuel w1 with ⟨r2, w2⟩
      simp only [hq] at h
      cases r2 with
      | ready c =>
        cases h
        exact ⟨by simp [waits, h1], fun S hS => ⟨h2 S hS.1, trivial⟩⟩
      | pending q'' =>
        cases h
        exact ⟨by simp [waits, h1], fun S hS => ⟨h2 S hS.1, (ihq w1 _ _ hq).2 S hS.2⟩⟩
      | panicked => cases h
      | diverged => cases h
    | panicked => cases h
    | diverged => cases h
  | select p q k ihp ihq =>
    intro w q' w' h
    rw [poll] at h
    rcases hp : p.poll ω fuel w with ⟨r, w1⟩
    rw [hp] at h
    cases r with
    | ready b => cases h
    | pending p' =>
      obtain ⟨h1, h2⟩ := ihp w p' _ hp
      rcases hq : q.poll ω fuel w1 with ⟨r2, w2⟩
      simp only [hq] at h
      cases r2 with
      | ready c => cases h
      | pending q'' =>
        cases h
        exact ⟨by simp [waits, h1], fun S hS => ⟨h2 S hS.1, (ihq w1 _ _ hq).2 S hS.2⟩⟩
      | panicked => cases h
      | diverged => cases h
    | panicked => cases h
    | diverged => cases h
  | loop body s ih =>
    intro w q w' h
    rw [poll] at h
    refine pollLoop_pending (Pd := fun q (_ : W) => q.waits ≠ [] ∧ ∀ S : Eff → Prop,
      (Prog.loop body s).Only S → q.Only S) ?_ fuel s w q w' h
    intro s1 w1 q1 w2 h1
    obtain ⟨a1, a2⟩ := ih s1 w1 q1 w2 h1
    refine ⟨a1, fun S hS => ⟨a2 S (hS s1), ?_⟩⟩
    rintro (s2 | a)
    · exact hS
    · trivial
  | panic => intro w q w' h; cases h

/-- What the answers to the calls a program makes preserve, its polls preserve. -/
theorem poll_inv_only {ω : World Ans W} {J : W → Prop} {S : Eff → Prop}
    (hs : ∀ e w, S e → J w → J (ω.start e w).2)
    (hp : ∀ e w, S e → J w → J (ω.poll e w).2) (fuel : Nat) (p : Prog Ans α) :
    p.Only S → ∀ w, J w → J (p.poll ω fuel w).2 := by
  induction p with
  | pure a => intro _ w h; exact h
  | call e k =>
    intro hS w h
    have := hs e w hS h
    rw [poll]
    rcases hq : ω.start e w with ⟨_ | r, w'⟩ <;> (rw [hq] at this; exact this)
  | wait e k =>
    intro hS w h
    have := hp e w hS h
    rw [poll]
    rcases hq : ω.poll e w with ⟨_ | r, w'⟩ <;> (rw [hq] at this; exact this)
  | bind p k ihp ihk =>
    intro hS w h
    have := ihp hS.1 w h
    rw [poll]
    rcases hq : p.poll ω fuel w with ⟨r, w'⟩
    rw [hq] at this
    cases r with
    | ready b => exact ihk b (hS.2 b) w' this
    | pending p => exact this
    | panicked => exact this
    | diverged => exact this
  | join p q k ihp ihq =>
    intro hS w h
    have := ihp hS.1 w h
    rw [poll]
    rcases hp : p.poll ω fuel w with ⟨r, w'⟩
    rw [hp] at this
    cases r with
    | ready b =>
      have h2 := ihq hS.2 w' this
      rcases hq : q.poll ω fuel w' with ⟨r2, w2⟩
      rw [hq] at h2
      simp only [hq]
      cases r2 <;> exact h2
    | pending p =>
      have h2 := ihq hS.2 w' this
      rcases hq : q.poll ω fuel w' with ⟨r2, w2⟩
      rw [hq] at h2
      simp only [hq]
      cases r2 <;> exact h2
    | panicked => exact this
    | diverged => exact this
  | select p q k ihp ihq =>
    intro hS w h
    have := ihp hS.1 w h
    rw [poll]
    rcases hp : p.poll ω fuel w with ⟨r, w'⟩
    rw [hp] at this
    cases r with
    | ready b => exact this
    | pending p =>
      have h2 := ihq hS.2 w' this
      rcases hq : q.poll ω fuel w' with ⟨r2, w2⟩
      rw [hq] at h2
      simp only [hq]
      cases r2 <;> exact h2
    | panicked => exact this
    | diverged => exact this
  | loop body s ih =>
    intro hS w h
    exact pollLoop_inv (fun s w hw => ih s (hS s) w hw) fuel s w h
  | panic => intro _ w h; exact h

/-- A program without loops. -/
def Prog.Loopless : {α : Type} → Prog Ans α → Prop
  | _, .pure _ => True
  | _, .call _ _ => True
  | _, .wait _ _ => True
  | _, .bind p k => p.Loopless ∧ ∀ b, (k b).Loopless
  | _, .join p q _ => p.Loopless ∧ q.Loopless
  | _, .select p q _ => p.Loopless ∧ q.Loopless
  | _, .loop _ _ => False
  | _, .panic => True

/-- Polls of programs without loops end. -/
theorem Prog.Loopless.poll (ω : World Ans W) (fuel : Nat) (p : Prog Ans α) :
    p.Loopless → ∀ w, (p.poll ω fuel w).1 ≠ .diverged ∧
      ∀ q w', p.poll ω fuel w = (.pending q, w') → q.Loopless := by
  induction p with
  | pure a => exact fun _ w => ⟨by simp [Prog.poll], fun q w' h => by cases h⟩
  | call e k =>
    intro _ w
    rw [Prog.poll]
    rcases ω.start e w with ⟨_ | r, w1⟩
    · exact ⟨by simp, fun q w' h => by cases h; trivial⟩
    · exact ⟨by simp, fun q w' h => by cases h⟩
  | wait e k =>
    intro _ w
    rw [Prog.poll]
    rcases ω.poll e w with ⟨_ | r, w1⟩
    · exact ⟨by simp, fun q w' h => by cases h; trivial⟩
    · exact ⟨by simp, fun q w' h => by cases h⟩
  | bind p k ihp ihk =>
    intro hL w
    obtain ⟨h1, h2⟩ := ihp hL.1 w
    rw [Prog.poll]
    rcases hp : p.poll ω fuel w with ⟨r, w1⟩
    rw [hp] at h1 h2
    cases r with
    | ready b => exact ihk b (hL.2 b) w1
    | pending p' => exact ⟨by simp, fun q w' h => by cases h; exact ⟨h2 _ _ rfl, hL.2⟩⟩
    | panicked => exact ⟨by simp, fun q w' h => by cases h⟩
    | diverged => exact absurd rfl h1
  | join p q k ihp ihq =>
    intro hL w
    obtain ⟨h1, h2⟩ := ihp hL.1 w
    rw [Prog.poll]
    rcases hp : p.poll ω fuel w with ⟨r, w1⟩
    rw [hp] at h1 h2
    cases r with
    | ready b =>
      obtain ⟨h3, h4⟩ := ihq hL.2 w1
      rcases hq : q.poll ω fuel w1 with ⟨r2, w2⟩
      rw [hq] at h3 h4
      simp only [hq]
      cases r2 with
      | ready c => exact ⟨by simp, fun q w' h => by cases h⟩
      | pending p' => exact ⟨by simp, fun q w' h => by cases h; exact ⟨trivial, h4 _ _ rfl⟩⟩
      | panicked => exact ⟨by simp, fun q w' h => by cases h⟩
      | diverged => exact absurd rfl h3
    | pending p' =>
      obtain ⟨h3, h4⟩ := ihq hL.2 w1
      rcases hq : q.poll ω fuel w1 with ⟨r2, w2⟩
      rw [hq] at h3 h4
      simp only [hq]
      cases r2 with
      | ready c => exact ⟨by simp, fun q w' h => by cases h; exact ⟨h2 _ _ rfl, trivial⟩⟩
      | pending p' => exact ⟨by simp, fun q w' h => by cases h; exact ⟨h2 _ _ rfl, h4 _ _ rfl⟩⟩
      | panicked => exact ⟨by simp, fun q w' h => by cases h⟩
      | diverged => exact absurd rfl h3
    | panicked => exact ⟨by simp, fun q w' h => by cases h⟩
    | diverged => exact absurd rfl h1
  | select p q k ihp ihq =>
    intro hL w
    obtain ⟨h1, h2⟩ := ihp hL.1 w
    rw [Prog.poll]
    rcases hp : p.poll ω fuel w with ⟨r, w1⟩
    rw [hp] at h1 h2
    cases r with
    | ready b => exact ⟨by simp, fun q w' h => by cases h⟩
    | pending p' =>
      obtain ⟨h3, h4⟩ := ihq hL.2 w1
      rcases hq : q.poll ω fuel w1 with ⟨r2, w2⟩
      rw [hq] at h3 h4
      simp only [hq]
      cases r2 with
      | ready c => exact ⟨by simp, fun q w' h => by cases h⟩
      | pending p' => exact ⟨by simp, fun q w' h => by cases h; exact ⟨h2 _ _ rfl, h4 _ _ rfl⟩⟩
      | panicked => exact ⟨by simp, fun q w' h => by cases h⟩
      | diverged => exact absurd rfl h3
    | panicked => exact ⟨by simp, fun q w' h => by cases h⟩
    | diverged => exact absurd rfl h1
  | loop body s ih => exact fun hL => hL.elim
  | panic => exact fun _ w => ⟨by simp [Prog.poll], fun q w' h => by cases h⟩

/-! ## Polling, step by step -/

section
variable {ω : World Ans W} {fuel : Nat} {w w' w'' : W}

theorem poll_await_some {e : Eff} {r : Ans e} (h : ω.start e w = (some r, w')) :
    (Prog.await e).poll ω fuel w = (.ready r, w') := by
  rw [Prog.await, poll, h]
  rfl

theorem poll_await_none {e : Eff} (h : ω.start e w = (none, w')) :
    (Prog.await (Ans := Ans) e).poll ω fuel w = (.pending (.wait e id), w') := by
  rw [Prog.await, poll, h]

theorem poll_wait_some {e : Eff} {r : Ans e} (h : ω.poll e w = (some r, w')) :
    (Prog.wait e id).poll ω fuel w = (.ready r, w') := by
  rw [poll, h]
  rfl

theorem poll_wait_none {e : Eff} (h : ω.poll e w = (none, w')) :
    (Prog.wait (Ans := Ans) e id).poll ω fuel w = (.pending (.wait e id), w') := by
  rw [poll, h]

theorem poll_bind_ready {p : Prog Ans β} {k : β → Prog Ans α} {b : β}
    (h : p.poll ω fuel w = (.ready b, w')) :
    (Prog.bind p k).poll ω fuel w = (k b).poll ω fuel w' := by
  rw [poll, h]

theorem poll_bind_pending {p p' : Prog Ans β} {k : β → Prog Ans α}
    (h : p.poll ω fuel w = (.pending p', w')) :
    (Prog.bind p k).poll ω fuel w = (.pending (.bind p' k), w') := by
  rw [poll, h]

theorem poll_bind_panicked {p : Prog Ans β} {k : β → Prog Ans α}
    (h : p.poll ω fuel w = (.panicked, w')) :
    (Prog.bind p k).poll ω fuel w = (.panicked, w') := by
  rw [poll, h]

theorem poll_bind_diverged {p : Prog Ans β} {k : β → Prog Ans α}
    (h : p.poll ω fuel w = (.diverged, w')) :
    (Prog.bind p k).poll ω fuel w = (.diverged, w') := by
  rw [poll, h]

theorem poll_select_first {p : Prog Ans β} {q : Prog Ans γ} {k : Either β γ → α} {b : β}
    (h : p.poll ω fuel w = (.ready b, w')) :
    (Prog.select p q k).poll ω fuel w = (.ready (k (.first b)), w') := by
  rw [poll, h]

theorem poll_select_second {p p' : Prog Ans β} {q : Prog Ans γ} {k : Either β γ → α} {c : γ}
    (h : p.poll ω fuel w = (.pending p', w')) (h' : q.poll ω fuel w' = (.ready c, w'')) :
    (Prog.select p q k).poll ω fuel w = (.ready (k (.second c)), w'') := by
  rw [poll, h]
  simp only [h']

theorem poll_select_pending {p p' : Prog Ans β} {q q' : Prog Ans γ} {k : Either β γ → α}
    (h : p.poll ω fuel w = (.pending p', w')) (h' : q.poll ω fuel w' = (.pending q', w'')) :
    (Prog.select p q k).poll ω fuel w = (.pending (.select p' q' k), w'') := by
  rw [poll, h]
  simp only [h']

/-- The record only grows. -/
theorem poll_prefix (ω : World Ans W) (fuel : Nat) (p : Prog Ans α) (x : W × List (Ev Ans)) :
    x.2 <+: (p.poll ω.record fuel x).2.2 := by
  obtain ⟨t, h, -⟩ := poll_outcome ω fuel p x.1 x.2
  exact ⟨t, h.symm⟩

end

end Dot15d4.Csma
