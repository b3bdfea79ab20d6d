import Verif.Model.Drops
import Verif.Lemmas.Waits

/-!
# Protocols of programs with drops

As Lemmas/Rests, for `pollD`: a protocol is an automaton over the entries of a record, which here
also has entries for polls and drops.  `HoldsD step p s Q D`: started in the state `s` of the
protocol, `p` keeps to it; when it returns `a` the state satisfies `Q a`, and if it is dropped where
it waits, the state satisfies `D`.
-/

namespace Dot15d4.Csma
open Dot15d4.Sync (Either)

variable {Eff : Type} {Ans : Eff → Type} {α β γ σ S W : Type}

open Prog

/-- An entry of the record of a program with drops. -/
inductive DEv {Eff : Type} (Ans : Eff → Type) where
  | start (e : Eff)
  | poll (e : Eff)
  | ret (e : Eff) (r : Ans e)
  | drop (e : Eff)

/-- The world `ω`, with everything asked of it recorded. -/
def Prog.DropWorld.record (ω : DropWorld Ans W) : DropWorld Ans (W × List (DEv Ans)) where
  start e w :=
    match ω.start e w.1 with
    | (some r, w') => (some r, (w', w.2 ++ [.start e, .ret e r]))
    | (none, w') => (none, (w', w.2 ++ [.start e]))
  poll e w :=
    match ω.poll e w.1 with
    | (some r, w') => (some r, (w', w.2 ++ [.poll e, .ret e r]))
    | (none, w') => (none, w', w.2 ++ [.poll e])
  drop e w := (ω.drop e w.1, w.2 ++ [.drop e])

/-- A call the protocol does not see. -/
def HiddenCall (step : S → DEv Ans → Option S) (e : Eff) : Prop :=
  ∀ s, step s (.start e) = some s ∧ step s (.poll e) = some s ∧ step s (.drop e) = some s ∧
    ∀ r, step s (.ret e r) = some s

/-- A program whose calls the protocol does not see. -/
def Hidden (step : S → DEv Ans → Option S) (p : Prog Ans α) : Prop := p.Only (HiddenCall step)

def HoldsD (step : S → DEv Ans → Option S) : {α : Type} → Prog Ans α → S → (α → S → Prop) →
    (S → Prop) → Prop
  | _, .pure a, s, Q, _ => Q a s
  | _, .call e k, s, Q, D => ∃ s1, step s (.start e) = some s1 ∧
      step s1 (.poll e) = some s1 ∧ (∃ s2, step s1 (.drop e) = some s2 ∧ D s2) ∧
      ∀ r, ∃ s2, step s1 (.ret e r) = some s2 ∧ Q (k r) s2
  | _, .wait e k, s, Q, D =>
      step s (.poll e) = some s ∧ (∃ s2, step s (.drop e) = some s2 ∧ D s2) ∧
      ∀ r, ∃ s2, step s (.ret e r) = some s2 ∧ Q (k r) s2
  | _, .bind p k, s, Q, D => HoldsD step p s (fun b s' => HoldsD step (k b) s' Q D) D
  | _, .join p q k, s, Q, D => Hidden step q ∧
      HoldsD step p s (fun b s' => D s' ∧ ∀ c, Q (k b c) s') D
  | _, .select p q k, s, Q, D => Hidden step q ∧
      HoldsD step p s (fun b s' => Q (k (.first b)) s') (fun s' => D s' ∧ ∀ c, Q (k (.second c)) s')
  | _, @Prog.loop _ _ σ _ body x, s, Q, D => ∃ I : σ → S → Prop, I x s ∧ ∀ x s, I x s →
      HoldsD step (body x) s (fun r s' => match r with
        | .inl x => I x s'
        | .inr a => Q a s') D
  | _, .panic, _, _, _ => True

variable {step : S → DEv Ans → Option S}

theorem HoldsD.mono {p : Prog Ans α} : ∀ {s : S} {Q Q' : α → S → Prop} {D D' : S → Prop},
    HoldsD step p s Q D → (∀ a s, Q a s → Q' a s) → (∀ s, D s → D' s) →
    HoldsD step p s Q' D' := by
  induction p with
  | pure a => exact fun h hQ _ => hQ _ _ h
  | call e k =>
    rintro s Q Q' D D' ⟨s1, h1, h2, ⟨s3, h4, h5⟩, h3⟩ hQ hD
    refine ⟨s1, h1, h2, ⟨s3, h4, hD _ h5⟩, fun r => ?_⟩
    obtain ⟨s2, h4, h5⟩ := h3 r
    exact ⟨s2, h4, hQ _ _ h5⟩
  | wait e k =>
    rintro s Q Q' D D' ⟨h2, ⟨s3, h4, h5⟩, h3⟩ hQ hD
    refine ⟨h2, ⟨s3, h4, hD _ h5⟩, fun r => ?_⟩
    obtain ⟨s2, h4, h5⟩ := h3 r
    exact ⟨s2, h4, hQ _ _ h5⟩
  | bind p k ihp ihk =>
    exact fun h hQ hD => ihp h (fun b s' hb => ihk b hb hQ hD) hD
  | join p q k ihp ihq =>
    exact fun h hQ hD => ⟨h.1, ihp h.2 (fun b s' hb => ⟨hD _ hb.1, fun c => hQ _ _ (hb.2 c)⟩) hD⟩
  | select p q k ihp ihq =>
    exact fun h hQ hD => ⟨h.1, ihp h.2 (fun b s' hb => hQ _ _ hb)
      (fun s' hs => ⟨hD _ hs.1, fun c => hQ _ _ (hs.2 c)⟩)⟩
  | loop body s ih =>
    rintro s Q Q' D D' ⟨I, h1, h2⟩ hQ hD
    refine ⟨I, h1, fun x s hx => ih x (h2 x s hx) ?_ hD⟩
    rintro (x' | a) s' h
    · exact h
    · exact hQ _ _ h
  | panic => exact fun _ _ _ => trivial

/-- A program the protocol does not see. -/
theorem Hidden.holds {p : Prog Ans α} : ∀ {s : S} {Q : α → S → Prop} {D : S → Prop},
    Hidden step p → (∀ a, Q a s) → D s → HoldsD step p s Q D := by
  induction p with
  | pure a => exact fun _ hQ _ => hQ a
  | call e k =>
    exact fun {s} _ _ h hQ hD => ⟨s, (h s).1, (h s).2.1, ⟨s, (h s).2.2.1, hD⟩,
      fun r => ⟨s, (h s).2.2.2 r, hQ _⟩⟩
  | wait e k =>
    exact fun {s} _ _ h hQ hD => ⟨(h s).2.1, ⟨s, (h s).2.2.1, hD⟩,
      fun r => ⟨s, (h s).2.2.2 r, hQ _⟩⟩
  | bind p k ihp ihk =>
    intro s Q D h hQ hD
    refine (ihp (Q := fun _ s' => s' = s) h.1 (fun _ => rfl) hD).mono ?_ fun _ h => h
    rintro b _ rfl
    exact ihk b (h.2 b) hQ hD
  | join p q k ihp ihq =>
    intro s Q D h hQ hD
    exact ⟨h.2, ihp h.1 (fun _ => ⟨hD, fun _ => hQ _⟩) hD⟩
  | select p q k ihp ihq =>
    intro s Q D h hQ hD
    exact ⟨h.2, ihp h.1 (fun _ => hQ _) ⟨hD, fun _ => hQ _⟩⟩
  | loop body s ih =>
    intro s0 Q D h hQ hD
    refine ⟨fun _ s' => s' = s0, rfl, ?_⟩
    rintro x _ rfl
    refine ih x (h x) ?_ hD
    rintro (x' | a)
    · rfl
    · exact hQ a
  | panic => exact fun _ _ _ => trivial

/-- What remains after a pending poll makes no new kinds of calls. -/
theorem pollD_pending (ω : DropWorld Ans W) (fuel : Nat) (p : Prog Ans α) {S : Eff → Prop} :
    p.Only S → ∀ w q w', p.pollD ω fuel w = (.pending q, w') → q.Only S := by
  induction p with
  | pure a => intro _ w q w' h; cases h
  | call e k =>
    intro hS w q w' h
    rw [pollD] at h
    rcases hs : ω.start e w with ⟨_ | r, w1⟩ <;> rw [hs] at h <;> cases h
    exact hS
  | wait e k =>
    intro hS w q w' h
    rw [pollD] at h
    rcases hs : ω.poll e w with ⟨_ | r, w1⟩ <;> rw [hs] at h <;> cases h
    exact hS
  | bind p k ihp ihk =>
    intro hS w q w' h
    rw [pollD] at h
    rcases hp : p.pollD ω fuel w with ⟨r, w1⟩
    rw [hp] at h
    cases r with
    | ready b => exact ihk b (hS.2 b) w1 q w' h
    | pending p' => cases h; exact ⟨ihp hS.1 w p' _ hp, hS.2⟩
    | panicked => cases h
    | diverged => cases h
  | join p q k ihp ihq =>
    intro hS w q' w' h
    rw [pollD] at h
    rcases hp : p.pollD ω fuel w with ⟨r, w1⟩
    rw [hp] at h
    cases r with
    | ready b =>
      rcases hq : q.pollD ω fuel w1 with ⟨r2, w2⟩
      simp only [hq] at h
      cases r2 <;> cases h
      exact ⟨trivial, ihq hS.2 w1 _ _ hq⟩
    | pending p' =>
      rcases hq : q.pollD ω fuel w1 with ⟨r2, w2⟩
      simp only [hq] at h
      cases r2 with
      | ready c => cases h; exact ⟨ihp hS.1 w p' _ hp, trivial⟩
      | pending q'' => cases h; exact ⟨ihp hS.1 w p' _ hp, ihq hS.2 w1 _ _ hq⟩
      | panicked => cases h
      | diverged => cases h
    | panicked => cases h
    | diverged => cases h
  | select p q k ihp ihq =>
    intro hS w q' w' h
    rw [pollD] at h
    rcases hp : p.pollD ω fuel w with ⟨r, w1⟩
    rw [hp] at h
    cases r with
    | ready b => cases h
    | pending p' =>
      rcases hq : q.pollD ω fuel w1 with ⟨r2, w2⟩
      simp only [hq] at h
      cases r2 with
      | ready c => cases h
      | pending q'' => cases h; exact ⟨ihp hS.1 w p' _ hp, ihq hS.2 w1 _ _ hq⟩
      | panicked => cases h
      | diverged => cases h
    | panicked => cases h
    | diverged => cases h
  | loop body s ih =>
    intro hS w q w' h
    rw [pollD] at h
    refine pollLoop_pending (Pd := fun q (_ : W) => q.Only S) ?_ fuel s w q w' h
    intro s1 w1 q1 w2 h1
    refine ⟨ih s1 (hS s1) w1 q1 w2 h1, ?_⟩
    rintro (s2 | a)
    · exact hS
    · trivial
  | panic => intro _ w q w' h; cases h

theorem dropCalls_inv {ω : DropWorld Ans W} {J : W → Prop} {S : Eff → Prop}
    (hd : ∀ e w, S e → J w → J (ω.drop e w)) : ∀ (l : List Eff), (∀ e ∈ l, S e) → ∀ w, J w →
    J (dropCalls ω l w)
  | [], _, w, h => h
  | e :: l, hS, w, h =>
    dropCalls_inv hd l (fun x hx => hS x (by simp [hx])) _ (hd e w (hS e (by simp)) h)

/-- What the answers to the calls a program makes preserve, its polls preserve. -/
theorem pollD_inv {ω : DropWorld Ans W} {J : W → Prop} {S : Eff → Prop}
    (hs : ∀ e w, S e → J w → J (ω.start e w).2)
    (hp : ∀ e w, S e → J w → J (ω.poll e w).2)
    (hd : ∀ e w, S e → J w → J (ω.drop e w)) (fuel : Nat) (p : Prog Ans α) :
    p.Only S → ∀ w, J w → J (p.pollD ω fuel w).2 := by
  induction p with
  | pure a => intro _ w h; exact h
  | call e k =>
    intro hS w h
    have := hs e w hS h
    rw [pollD]
    rcases hq : ω.start e w with ⟨_ | r, w'⟩ <;> (rw [hq] at this; exact this)
  | wait e k =>
    intro hS w h
    have := hp e w hS h
    rw [pollD]
    rcases hq : ω.poll e w with ⟨_ | r, w'⟩ <;> (rw [hq] at this; exact this)
  | bind p k ihp ihk =>
    intro hS w h
    have := ihp hS.1 w h
    rw [pollD]
    rcases hq : p.pollD ω fuel w with ⟨r, w'⟩
    rw [hq] at this
    cases r with
    | ready b => exact ihk b (hS.2 b) w' this
    | pending p => exact this
    | panicked => exact this
    | diverged => exact this
  | join p q k ihp ihq =>
    intro hS w h
    have := ihp hS.1 w h
    rw [pollD]
    rcases hp : p.pollD ω fuel w with ⟨r, w'⟩
    rw [hp] at this
    cases r with
    | ready b =>
      have h2 := ihq hS.2 w' this
      rcases hq : q.pollD ω fuel w' with ⟨r2, w2⟩
      rw [hq] at h2
      simp only [hq]
      cases r2 <;> exact h2
    | pending p =>
      have h2 := ihq hS.2 w' this
      rcases hq : q.pollD ω fuel w' with ⟨r2, w2⟩
      rw [hq] at h2
      simp only [hq]
      cases r2 <;> exact h2
    | panicked => exact this
    | diverged => exact this
  | select p q k ihp ihq =>
    intro hS w h
    have := ihp hS.1 w h
    rw [pollD]
    rcases hp : p.pollD ω fuel w with ⟨r, w'⟩
    rw [hp] at this
    cases r with
    | ready b => exact dropCalls_inv hd _ hS.2.mem_waits _ this
    | pending p' =>
      have h2 := ihq hS.2 w' this
      rcases hq : q.pollD ω fuel w' with ⟨r2, w2⟩
      rw [hq] at h2
      simp only [hq]
      cases r2 with
      | ready c => exact dropCalls_inv hd _ (pollD_pending _ _ _ hS.1 _ _ _ hp).mem_waits _ h2
      | pending q' => exact h2
      | panicked => exact h2
      | diverged => exact h2
    | panicked => exact this
    | diverged => exact this
  | loop body s ih =>
    intro hS w h
    exact pollLoop_inv (fun s w hw => ih s (hS s) w hw) fuel s w h
  | panic => intro _ w h; exact h

/-- Dropping calls, recorded. -/
theorem dropCalls_record (ω : DropWorld Ans W) : ∀ (l : List Eff) (x : W × List (DEv Ans)),
    (dropCalls ω.record l x).2 = x.2 ++ l.map .drop
  | [], x => by simp [dropCalls]
  | e :: l, x => by
    have := dropCalls_record ω l (ω.record.drop e x)
    rw [dropCalls] at this ⊢
    rw [List.foldl_cons, this]
    simp [DropWorld.record]

theorem walk_hidden {l : List Eff} (h : ∀ e ∈ l, HiddenCall step e) (s : S) :
    walk step s (l.map .drop) = some s := by
  induction l with
  | nil => rfl
  | cons e l ih =>
    rw [List.map_cons, walk, (h e (by simp) s).2.2.1, Option.bind_some]
    exact ih fun x hx => h x (by simp [hx])

/-- A poll of a program the protocol does not see leaves its state. -/
theorem Hidden.poll {p : Prog Ans α} (h : Hidden step p) (ω : DropWorld Ans W) (fuel : Nat)
    {s0 s : S} {x : W × List (DEv Ans)} (hx : walk step s0 x.2 = some s) :
    walk step s0 (p.pollD ω.record fuel x).2.2 = some s := by
  refine pollD_inv (J := fun x => walk step s0 x.2 = some s) ?_ ?_ ?_ fuel p h x hx
  · rintro e ⟨w, l⟩ he hw
    simp only [DropWorld.record]
    have hw : walk step s0 l = some s := hw
    rcases ω.start e w with ⟨_ | r, w'⟩
    · simp [walk_append, hw, walk, (he s).1]
    · simp [walk_append, hw, walk, (he s).1, (he s).2.2.2 r]
  · rintro e ⟨w, l⟩ he hw
    simp only [DropWorld.record]
    have hw : walk step s0 l = some s := hw
    rcases ω.poll e w with ⟨_ | r, w'⟩
    · simp [walk_append, hw, walk, (he s).2.1]
    · simp [walk_append, hw, walk, (he s).2.1, (he s).2.2.2 r]
  · rintro e ⟨w, l⟩ he hw
    have hw : walk step s0 l = some s := hw
    simp [DropWorld.record, walk_append, hw, walk, (he s).2.2.1]

/-- What a poll of a program that `HoldsD` leads to. -/
def HeldD (step : S → DEv Ans → Option S) (s0 : S) (Q : α → S → Prop) (D : S → Prop)
    (r : Res Ans α) (l : List (DEv Ans)) : Prop :=
  ∃ s, walk step s0 l = some s ∧ match r with
    | .pending p => HoldsD step p s Q D ∧ ∃ s', walk step s (p.waits.map .drop) = some s' ∧ D s'
    | .ready a => Q a s
    | _ => True

theorem pollLoop_holdsD {body : σ → Prog Ans (Sum σ α)} {I : σ → S → Prop} {s0 : S}
    {Q : α → S → Prop} {D : S → Prop}
    {pb : σ → W × List (DEv Ans) → Res Ans (Sum σ α) × (W × List (DEv Ans))}
    (hI : ∀ x s, I x s → HoldsD step (body x) s (fun r s' => match r with
        | .inl x => I x s'
        | .inr a => Q a s') D)
    (hb : ∀ x s, I x s → ∀ w, walk step s0 w.2 = some s → HeldD step s0 (fun r s' => match r with
        | .inl x => I x s'
        | .inr a => Q a s') D (pb x w).1 (pb x w).2.2) (n : Nat) :
    ∀ x s, I x s → ∀ w, walk step s0 w.2 = some s →
      HeldD step s0 Q D (pollLoop body pb n x w).1 (pollLoop body pb n x w).2.2 := by
  induction n with
  | zero => exact fun x s _ w hw => ⟨s, hw, trivial⟩
  | succ n ih =>
    intro x s hx w hw
    have := hb x s hx w hw
    rw [pollLoop]
    rcases hp : pb x w with ⟨r, w'⟩
    rw [hp] at this
    obtain ⟨s', h1, h2⟩ := this
    cases r with
    | pending p =>
      obtain ⟨h2, h3⟩ := h2
      refine ⟨s', h1, h2.mono ?_ fun _ h => h, h3⟩
      rintro (x' | a) s'' h
      · exact ⟨I, h, hI⟩
      · exact h
    | ready r =>
      cases r with
      | inl x' => exact ih x' s' h2 w' h1
      | inr a => exact ⟨s', h1, h2⟩
    | panicked => exact ⟨s', h1, trivial⟩
    | diverged => exact ⟨s', h1, trivial⟩

theorem HoldsD.poll (ω : DropWorld Ans W) (fuel : Nat) {p : Prog Ans α} :
    ∀ {s0 s : S} {Q : α → S → Prop} {D : S → Prop} {x : W × List (DEv Ans)},
      HoldsD step p s Q D → walk step s0 x.2 = some s →
      HeldD step s0 Q D (p.pollD ω.record fuel x).1 (p.pollD ω.record fuel x).2.2 := by
  induction p with
  | pure a => exact fun h hx => ⟨_, hx, h⟩
  | call e k =>
    rintro s0 s Q D ⟨w, l⟩ ⟨s1, h1, h2, ⟨sd, hd, hD⟩, h3⟩ hx
    have hx : walk step s0 l = some s := hx
    rw [Prog.pollD]
    simp only [DropWorld.record]
    rcases ω.start e w with ⟨_ | r, w'⟩
    · exact ⟨s1, by simp [walk_append, hx, walk, h1], ⟨h2, ⟨sd, hd, hD⟩, h3⟩, sd,
        by simp [waits, walk, hd], hD⟩
    · obtain ⟨s2, h4, h5⟩ := h3 r
      exact ⟨s2, by simp [walk_append, hx, walk, h1, h4], h5⟩
  | wait e k =>
    rintro s0 s Q D ⟨w, l⟩ ⟨h2, ⟨sd, hd, hD⟩, h3⟩ hx
    have hx : walk step s0 l = some s := hx
    rw [Prog.pollD]
    simp only [DropWorld.record]
    rcases ω.poll e w with ⟨_ | r, w'⟩
    · exact ⟨s, by simp [walk_append, hx, walk, h2], ⟨h2, ⟨sd, hd, hD⟩, h3⟩, sd,
        by simp [waits, walk, hd], hD⟩
    · obtain ⟨s2, h4, h5⟩ := h3 r
      exact ⟨s2, by simp [walk_append, hx, walk, h2, h4], h5⟩
  | bind p k ihp ihk =>
    intro s0 s Q D x h hx
    have := ihp h hx
    rw [Prog.pollD]
    rcases hp : p.pollD ω.record fuel x with ⟨r, x1⟩
    rw [hp] at this
    obtain ⟨s', h1, h2⟩ := this
    cases r with
    | ready b => exact ihk b h2 h1
    | pending p' => exact ⟨s', h1, h2⟩
    | panicked => exact ⟨s', h1, trivial⟩
    | diverged => exact ⟨s', h1, trivial⟩
  | join p q k ihp ihq =>
    intro s0 s Q D x h hx
    have := ihp h.2 hx
    rw [Prog.pollD]
    rcases hp : p.pollD ω.record fuel x with ⟨r, x1⟩
    rw [hp] at this
    obtain ⟨s', h1, h2⟩ := this
    cases r with
    | ready b =>
      have h4 := h.1.poll ω fuel h1
      rcases hq : q.pollD ω.record fuel x1 with ⟨r2, x2⟩
      rw [hq] at h4
      simp only [hq]
      cases r2 with
      | ready c => exact ⟨s', h4, h2.2 c⟩
      | pending q' =>
        have hq' : Hidden step q' := pollD_pending _ _ _ h.1 _ _ _ hq
        exact ⟨s', h4, ⟨hq', h2⟩, s', by simpa [waits] using walk_hidden hq'.mem_waits s', h2.1⟩
      | panicked => exact ⟨s', h4, trivial⟩
      | diverged => exact ⟨s', h4, trivial⟩
    | pending p' =>
      obtain ⟨h2, sd, hd, hD⟩ := h2
      have h4 := h.1.poll ω fuel h1
      rcases hq : q.pollD ω.record fuel x1 with ⟨r2, x2⟩
      rw [hq] at h4
      simp only [hq]
      cases r2 with
      | ready c => exact ⟨s', h4, ⟨trivial, h2⟩, sd, by simpa [waits] using hd, hD⟩
      | pending q' =>
        have hq' : Hidden step q' := pollD_pending _ _ _ h.1 _ _ _ hq
        refine ⟨s', h4, ⟨hq', h2⟩, sd, ?_, hD⟩
        rw [waits, List.map_append, walk_append, hd, Option.bind_some, walk_hidden hq'.mem_waits]
      | panicked => exact ⟨s', h4, trivial⟩
      | diverged => exact ⟨s', h4, trivial⟩
    | panicked => exact ⟨s', h1, trivial⟩
    | diverged => exact ⟨s', h1, trivial⟩
  | select p q k ihp ihq =>
    intro s0 s Q D x h hx
    have := ihp h.2 hx
    rw [Prog.pollD]
    rcases hp : p.pollD ω.record fuel x with ⟨r, x1⟩
    rw [hp] at this
    obtain ⟨s', h1, h2⟩ := this
    cases r with
    | ready b =>
      refine ⟨s', ?_, h2⟩
      simp only [dropped]
      rw [dropCalls_record, walk_append]
      simp only at h1
      rw [h1, Option.bind_some, walk_hidden h.1.mem_waits]
    | pending p' =>
      obtain ⟨h2, sd, hd, hD⟩ := h2
      have h4 := h.1.poll ω fuel h1
      rcases hq : q.pollD ω.record fuel x1 with ⟨r2, x2⟩
      rw [hq] at h4
      simp only [hq]
      cases r2 with
      | ready c =>
        refine ⟨sd, ?_, hD.2 c⟩
        simp only [dropped]
        rw [dropCalls_record, walk_append]
        simp only at h4
        rw [h4, Option.bind_some, hd]
      | pending q' =>
        have hq' : Hidden step q' := pollD_pending _ _ _ h.1 _ _ _ hq
        refine ⟨s', h4, ⟨hq', h2⟩, sd, ?_, hD.1⟩
        rw [waits, List.map_append, walk_append, hd, Option.bind_some, walk_hidden hq'.mem_waits]
      | panicked => exact ⟨s', h4, trivial⟩
      | diverged => exact ⟨s', h4, trivial⟩
    | panicked => exact ⟨s', h1, trivial⟩
    | diverged => exact ⟨s', h1, trivial⟩
  | loop body x0 ih =>
    rintro s0 s Q D x ⟨I, h1, h2⟩ hx
    rw [Prog.pollD]
    exact pollLoop_holdsD h2 (fun x s hI w hw => ih x (h2 x s hI) hw) fuel x0 s h1 x hx
  | panic => exact fun {s0 s} _ _ _ _ hx => ⟨s, hx, trivial⟩

/-- `f` maps the world `ω` to the world `ω'`. -/
structure DropMap {V : Type} (ω : DropWorld Ans W) (ω' : DropWorld Ans V) (f : W → V) : Prop where
  start : ∀ e w, ω'.start e (f w) = ((ω.start e w).1, f (ω.start e w).2)
  poll : ∀ e w, ω'.poll e (f w) = ((ω.poll e w).1, f (ω.poll e w).2)
  drop : ∀ e w, ω'.drop e (f w) = f (ω.drop e w)

section
variable {V : Type} {ω : DropWorld Ans W} {ω' : DropWorld Ans V} {f : W → V}

theorem DropMap.dropCalls (h : DropMap ω ω' f) : ∀ (l : List Eff) (w : W),
    dropCalls ω' l (f w) = f (Prog.dropCalls ω l w)
  | [], _ => rfl
  | e :: l, w => by
    have := h.dropCalls l (ω.drop e w)
    rw [Prog.dropCalls] at this ⊢
    rw [List.foldl_cons, h.drop, this]
    rfl

theorem pollLoop_map {body : σ → Prog Ans (Sum σ α)} {pb : σ → W → Res Ans (Sum σ α) × W}
    {pb' : σ → V → Res Ans (Sum σ α) × V}
    (h : ∀ s w, pb' s (f w) = ((pb s w).1, f (pb s w).2)) (n : Nat) :
    ∀ s w, pollLoop body pb' n s (f w) =
      ((pollLoop body pb n s w).1, f (pollLoop body pb n s w).2) := by
  induction n with
  | zero => exact fun _ _ => rfl
  | succ n ih =>
    intro s w
    rw [pollLoop, pollLoop, h]
    rcases pb s w with ⟨r, w1⟩
    cases r with
    | ready a =>
      cases a with
      | inl s1 => exact ih s1 w1
      | inr a => rfl
    | _ => rfl

/-- Mapped worlds give the same answers. -/
theorem DropMap.pollD (h : DropMap ω ω' f) (fuel : Nat) (p : Prog Ans α) (w : W) :
    p.pollD ω' fuel (f w) = ((p.pollD ω fuel w).1, f (p.pollD ω fuel w).2) := by
  induction p generalizing w with
  | pure a => rfl
  | call e k =>
    rw [Prog.pollD, Prog.pollD, h.start]
    rcases ω.start e w with ⟨_ | r, w1⟩ <;> rfl
  | wait e k =>
    rw [Prog.pollD, Prog.pollD, h.poll]
    rcases ω.poll e w with ⟨_ | r, w1⟩ <;> rfl
  | bind p k ihp ihk =>
    rw [Prog.pollD, Prog.pollD, ihp]
    rcases p.pollD ω fuel w with ⟨r, w1⟩
    cases r with
    | ready b => exact ihk b w1
    | _ => rfl
  | join p q k ihp ihq =>
    rw [Prog.pollD, Prog.pollD, ihp]
    rcases p.pollD ω fuel w with ⟨r, w1⟩
    cases r with
    | ready b => simp only [ihq]; rcases q.pollD ω fuel w1 with ⟨_ | _ | _ | _, w2⟩ <;> rfl
    | pending p => simp only [ihq]; rcases q.pollD ω fuel w1 with ⟨_ | _ | _ | _, w2⟩ <;> rfl
    | _ => rfl
  | select p q k ihp ihq =>
    rw [Prog.pollD, Prog.pollD, ihp]
    rcases p.pollD ω fuel w with ⟨r, w1⟩
    cases r with
    | ready b => simp only [dropped, h.dropCalls]
    | pending p =>
      simp only [ihq, dropped]
      rcases q.pollD ω fuel w1 with ⟨_ | _ | _ | _, w2⟩ <;> simp only [h.dropCalls]
    | _ => rfl
  | loop body s ih => exact pollLoop_map (fun s w => ih s w) fuel s w
  | panic => rfl

end

/-- Recording changes nothing else. -/
theorem record_map (ω : DropWorld Ans W) : DropMap ω.record ω Prod.fst where
  start e w := by
    simp only [DropWorld.record]
    rcases ω.start e w.1 with ⟨_ | r, w1⟩ <;> rfl
  poll e w := by
    simp only [DropWorld.record]
    rcases ω.poll e w.1 with ⟨_ | r, w1⟩ <;> rfl
  drop _ _ := rfl

end Dot15d4.Csma
