import Verif.Lemmas.Waits

/-!
# What a program waits for, and the state of a protocol then

`Rests p L`: whenever a poll leaves `p` (or what remained of it) pending, the list of the calls it
waits for satisfies `L`.  `Holds step p s Q W`: the same for a program that keeps to a protocol; `W`
relates the protocol's state to what the program then waits for.
-/

namespace Dot15d4.Csma
open Dot15d4.Sync (Either)

variable {Eff : Type} {Ans : Eff → Type} {α β γ σ S W : Type}

open Prog

def Prog.Rests : {α : Type} → Prog Ans α → (List Eff → Prop) → Prop
  | _, .pure _, _ => True
  | _, .call e _, L => L [e]
  | _, .wait e _, L => L [e]
  | _, .bind p k, L => p.Rests L ∧ ∀ b, (k b).Rests L
  | _, .join p q _, L => p.Rests L ∧ q.Rests L ∧ p.Rests fun l => q.Rests fun l' => L (l ++ l')
  | _, .select p q _, L => p.Rests fun l => q.Rests fun l' => L (l ++ l')
  | _, .loop body _, L => ∀ s, (body s).Rests L
  | _, .panic, _ => True

theorem Prog.Rests.mono {p : Prog Ans α} : ∀ {L L' : List Eff → Prop}, p.Rests L →
    (∀ l, L l → L' l) → p.Rests L' := by
  induction p with
  | pure a => exact fun _ _ => trivial
  | call e k => exact fun h hL => hL _ h
  | wait e k => exact fun h hL => hL _ h
  | bind p k ihp ihk => exact fun h hL => ⟨ihp h.1 hL, fun b => ihk b (h.2 b) hL⟩
  | join p q k ihp ihq =>
    exact fun h hL => ⟨ihp h.1 hL, ihq h.2.1 hL,
      ihp h.2.2 fun l hl => ihq hl fun l' hl' => hL _ hl'⟩
  | select p q k ihp ihq => exact fun h hL => ihp h fun l hl => ihq hl fun l' hl' => hL _ hl'
  | loop body s ih => exact fun h hL s => ih s (h s) hL
  | panic => exact fun _ _ => trivial

theorem Prog.Rests.and {p : Prog Ans α} {L L' : List Eff → Prop} (h : p.Rests L)
    (h' : p.Rests L') : p.Rests fun l => L l ∧ L' l := by
  induction p generalizing L L' with
  | pure a => trivial
  | call e k => exact ⟨h, h'⟩
  | wait e k => exact ⟨h, h'⟩
  | bind p k ihp ihk => exact ⟨ihp h.1 h'.1, fun b => ihk b (h.2 b) (h'.2 b)⟩
  | join p q k ihp ihq =>
    exact ⟨ihp h.1 h'.1, ihq h.2.1 h'.2.1, (ihp h.2.2 h'.2.2).mono fun l hl => ihq hl.1 hl.2⟩
  | select p q k ihp ihq => exact (ihp h h').mono fun l hl => ihq hl.1 hl.2
  | loop body s ih => exact fun s => ih s (h s) (h' s)
  | panic => trivial

theorem Prog.Rests.poll (ω : World Ans W) (fuel : Nat) (p : Prog Ans α) :
    ∀ w q w', p.poll ω fuel w = (.pending q, w') → ∀ {L : List Eff → Prop}, p.Rests L →
      L q.waits ∧ q.Rests L := by
  induction p with
  | pure a => intro w q w' h; cases h
  | call e k =>
    intro w q w' h L hL
    rw [Prog.poll] at h
    rcases hs : ω.start e w with ⟨_ | r, w1⟩ <;> rw [hs] at h <;> cases h
    exact ⟨hL, hL⟩
  | wait e k =>
    intro w q w' h L hL
    rw [Prog.poll] at h
    rcases hs : ω.poll e w with ⟨_ | r, w1⟩ <;> rw [hs] at h <;> cases h
    exact ⟨hL, hL⟩
  | bind p k ihp ihk =>
    intro w q w' h L hL
    rw [Prog.poll] at h
    rcases hp : p.poll ω fuel w with ⟨r, w1⟩
    rw [hp] at h
    cases r with
    | ready b => exact ihk b w1 q w' h (hL.2 b)
    | pending p' =>
      cases h
      obtain ⟨h1, h2⟩ := ihp w p' _ hp hL.1
      exact ⟨h1, h2, hL.2⟩
    | panicked => cases h
    | diverged => cases h
  | join p q k ihp ihq =>
    intro w q' w' h L hL
    rw [Prog.poll] at h
    rcases hp : p.poll ω fuel w with ⟨r, w1⟩
    rw [hp] at h
    cases r with
    | ready b =>
      rcases hq : q.poll ω fuel w1 with ⟨r2, w2⟩
      simp only [hq] at h
      cases r2 <;> cases h
      obtain ⟨h1, h2⟩ := ihq w1 _ _ hq hL.2.1
      exact ⟨h1, trivial, h2, trivial⟩
    | pending p' =>
      obtain ⟨h1, h2⟩ := ihp w p' _ hp hL.1
      obtain ⟨h3, h4⟩ := ihp w p' _ hp hL.2.2
      rcases hq : q.poll ω fuel w1 with ⟨r2, w2⟩
      simp only [hq] at h
      cases r2 with
      | ready c =>
        cases h
        exact ⟨by simpa [waits] using h1, h2, trivial, h2.mono fun _ _ => trivial⟩
      | pending q'' =>
        cases h
        refine ⟨(ihq w1 _ _ hq h3).1, h2, (ihq w1 _ _ hq hL.2.1).2, h4.mono fun l hl => ?_⟩
        exact (ihq w1 _ _ hq hl).2
      | panicked => cases h
      | diverged => cases h
    | panicked => cases h
    | diverged => cases h
  | select p q k ihp ihq =>
    intro w q' w' h L hL
    rw [Prog.poll] at h
    rcases hp : p.poll ω fuel w with ⟨r, w1⟩
    rw [hp] at h
    cases r with
    | ready b => cases h
    | pending p' =>
      obtain ⟨h3, h4⟩ := ihp w p' _ hp hL
      rcases hq : q.poll ω fuel w1 with ⟨r2, w2⟩
      simp only [hq] at h
      cases r2 with
      | ready c => cases h
      | pending q'' =>
        cases h
        refine ⟨(ihq w1 _ _ hq h3).1, h4.mono fun l hl => ?_⟩
        exact (ihq w1 _ _ hq hl).2
      | panicked => cases h
      | diverged => cases h
    | panicked => cases h
    | diverged => cases h
  | loop body s ih =>
    intro w q w' h L hL
    rw [Prog.poll] at h
    refine pollLoop_pending (Pd := fun q (_ : W) => L q.waits ∧ q.Rests L) ?_ fuel s w q w' h
    intro s1 w1 q1 w2 h1
    obtain ⟨a1, a2⟩ := ih s1 w1 q1 w2 h1 (hL s1)
    refine ⟨a1, a2, ?_⟩
    rintro (s2 | a)
    · exact hL
    · trivial
  | panic => intro w q w' h; cases h

/-- See above.  In a `join` or `select` the protocol does not see the second program. -/
def Holds (step : S → Ev Ans → Option S) : {α : Type} → Prog Ans α → S → (α → S → Prop) →
    (S → List Eff → Prop) → Prop
  | _, .pure a, s, Q, _ => Q a s
  | _, .call e k, s, Q, W => ∃ s1, step s (.start e) = some s1 ∧ W s1 [e] ∧
      ∀ r, ∃ s2, step s1 (.ret e r) = some s2 ∧ Q (k r) s2
  | _, .wait e k, s, Q, W => W s [e] ∧ ∀ r, ∃ s2, step s (.ret e r) = some s2 ∧ Q (k r) s2
  | _, .bind p k, s, Q, W => Holds step p s (fun b s' => Holds step (k b) s' Q W) W
  | _, .join p q k, s, Q, W => Unseen step q ∧
      Holds step p s (fun b s' => (∀ c, Q (k b c) s') ∧ q.Rests (W s')) (fun s' l =>
        W s' l ∧ q.Rests fun l' => W s' (l ++ l'))
  | _, .select p q k, s, Q, W => Unseen step q ∧
      Holds step p s (fun b s' => Q (k (.first b)) s') (fun s' l =>
        (q.Rests fun l' => W s' (l ++ l')) ∧ ∀ c, Q (k (.second c)) s')
  | _, @Prog.loop _ _ σ _ body x, s, Q, W => ∃ I : σ → S → Prop, I x s ∧ ∀ x s, I x s →
      Holds step (body x) s (fun r s' => match r with
        | .inl x => I x s'
        | .inr a => Q a s') W
  | _, .panic, _, _, _ => True

variable {step : S → Ev Ans → Option S}

theorem Holds.mono {p : Prog Ans α} : ∀ {s : S} {Q Q' : α → S → Prop} {W W' : S → List Eff → Prop},
    Holds step p s Q W → (∀ a s, Q a s → Q' a s) → (∀ s l, W s l → W' s l) →
    Holds step p s Q' W' := by
  induction p with
  | pure a => exact fun h hQ _ => hQ _ _ h
  | call e k =>
    rintro s Q Q' W W' ⟨s1, h1, h2, h3⟩ hQ hW
    refine ⟨s1, h1, hW _ _ h2, fun r => ?_⟩
    obtain ⟨s2, h4, h5⟩ := h3 r
    exact ⟨s2, h4, hQ _ _ h5⟩
  | wait e k =>
    rintro s Q Q' W W' ⟨h2, h3⟩ hQ hW
    refine ⟨hW _ _ h2, fun r => ?_⟩
    obtain ⟨s2, h4, h5⟩ := h3 r
    exact ⟨s2, h4, hQ _ _ h5⟩
  | bind p k ihp ihk =>
    exact fun h hQ hW => ihp h (fun b s' hb => ihk b hb hQ hW) hW
  | join p q k ihp ihq =>
    exact fun h hQ hW => ⟨h.1, ihp h.2
      (fun b s' hb => ⟨fun c => hQ _ _ (hb.1 c), hb.2.mono (hW s')⟩)
      (fun s' l hl => ⟨hW _ _ hl.1, hl.2.mono fun l' hl' => hW _ _ hl'⟩)⟩
  | select p q k ihp ihq =>
    exact fun h hQ hW => ⟨h.1, ihp h.2 (fun b s' hb => hQ _ _ hb)
      (fun s' l hl => ⟨hl.1.mono fun l' hl' => hW _ _ hl', fun c => hQ _ _ (hl.2 c)⟩)⟩
  | loop body s ih =>
    rintro s Q Q' W W' ⟨I, h1, h2⟩ hQ hW
    refine ⟨I, h1, fun x s hx => ih x (h2 x s hx) ?_ hW⟩
    rintro (x' | a) s' h
    · exact h
    · exact hQ _ _ h
  | panic => exact fun _ _ _ => trivial

/-- A program the protocol does not see. -/
theorem Unseen.holds {p : Prog Ans α} : ∀ {s : S} {Q : α → S → Prop} {W : S → List Eff → Prop},
    Unseen step p → (∀ a, Q a s) → p.Rests (W s) → Holds step p s Q W := by
  induction p with
  | pure a => exact fun _ hQ _ => hQ a
  | call e k =>
    exact fun h hQ hW => ⟨_, (h _).1, hW, fun r => ⟨_, (h _).2 r, hQ _⟩⟩
  | wait e k =>
    exact fun h hQ hW => ⟨hW, fun r => ⟨_, (h _).2 r, hQ _⟩⟩
  | bind p k ihp ihk =>
    intro s Q W h hQ hW
    refine (ihp (Q := fun _ s' => s' = s) h.1 (fun _ => rfl) hW.1).mono ?_ fun _ _ h => h
    rintro b _ rfl
    exact ihk b (h.2 b) hQ (hW.2 b)
  | join p q k ihp ihq =>
    intro s Q W h hQ hW
    refine ⟨h.2, ihp h.1 (fun _ => ⟨fun _ => hQ _, hW.2.1⟩) ?_⟩
    exact hW.1.and hW.2.2
  | select p q k ihp ihq =>
    intro s Q W h hQ hW
    exact ⟨h.2, ihp h.1 (fun _ => hQ _)
      (Prog.Rests.mono (p := p) hW fun l hl => ⟨hl, fun _ => hQ _⟩)⟩
  | loop body s ih =>
    intro s0 Q W h hQ hW
    refine ⟨fun _ s' => s' = s0, rfl, ?_⟩
    rintro x _ rfl
    refine ih x (h x) ?_ (hW x)
    rintro (x' | a)
    · rfl
    · exact hQ a
  | panic => exact fun _ _ _ => trivial

/-- A poll of a program the protocol does not see leaves its state. -/
theorem Unseen.poll {p : Prog Ans α} (h : Unseen step p) (ω : World Ans W) (fuel : Nat) {s0 s : S}
    {x : W × List (Ev Ans)} (hx : walk step s0 x.2 = some s) :
    walk step s0 (p.poll ω.record fuel x).2.2 = some s := by
  refine poll_inv_only (J := fun x => walk step s0 x.2 = some s) ?_ ?_ fuel p h x hx
  · rintro e ⟨w, l⟩ he hw
    simp only [World.record]
    have hw : walk step s0 l = some s := hw
    rcases ω.start e w with ⟨_ | r, w'⟩
    · simp [walk_append, hw, walk, (he s).1]
    · simp [walk_append, hw, walk, (he s).1, (he s).2 r]
  · rintro e ⟨w, l⟩ he hw
    simp only [World.record]
    have hw : walk step s0 l = some s := hw
    rcases ω.poll e w with ⟨_ | r, w'⟩
    · exact hw
    · simp [walk_append, hw, walk, (he s).2 r]

/-- What a poll of a program that `Holds` leads to. -/
def HeldBy (step : S → Ev Ans → Option S) (s0 : S) (Q : α → S → Prop) (W : S → List Eff → Prop)
    (r : Res Ans α) (l : List (Ev Ans)) : Prop :=
  match r with
  | .pending p => ∃ s, walk step s0 l = some s ∧ Holds step p s Q W ∧ W s p.waits
  | .ready a => ∃ s, walk step s0 l = some s ∧ Q a s
  | _ => True

theorem pollLoop_holds {body : σ → Prog Ans (Sum σ α)} {I : σ → S → Prop} {s0 : S}
    {Q : α → S → Prop} {V : S → List Eff → Prop}
    {pb : σ → W × List (Ev Ans) → Res Ans (Sum σ α) × (W × List (Ev Ans))}
    (hI : ∀ x s, I x s → Holds step (body x) s (fun r s' => match r with
        | .inl x => I x s'
        | .inr a => Q a s') V)
    (hb : ∀ x s, I x s → ∀ w, walk step s0 w.2 = some s → HeldBy step s0 (fun r s' => match r with
        | .inl x => I x s'
        | .inr a => Q a s') V (pb x w).1 (pb x w).2.2) (n : Nat) :
    ∀ x s, I x s → ∀ w, walk step s0 w.2 = some s →
      HeldBy step s0 Q V (pollLoop body pb n x w).1 (pollLoop body pb n x w).2.2 := by
  induction n with
  | zero => exact fun x s _ w _ => trivial
  | succ n ih =>
    intro x s hx w hw
    have := hb x s hx w hw
    rw [pollLoop]
    rcases hp : pb x w with ⟨r, w'⟩
    rw [hp] at this
    cases r with
    | pending p =>
      obtain ⟨s', h1, h2, h3⟩ := this
      refine ⟨s', h1, h2.mono ?_ fun _ _ h => h, h3⟩
      rintro (x' | a) s'' h
      · exact ⟨I, h, hI⟩
      · exact h
    | ready r =>
      obtain ⟨s', h1, h2⟩ := this
      cases r with
      | inl x' => exact ih x' s' h2 w' h1
      | inr a => exact ⟨s', h1, h2⟩
    | panicked => trivial
    | diverged => trivial

theorem Holds.poll (ω : World Ans W) (fuel : Nat) {p : Prog Ans α} :
    ∀ {s0 s : S} {Q : α → S → Prop} {V : S → List Eff → Prop} {x : W × List (Ev Ans)},
      Holds step p s Q V → walk step s0 x.2 = some s →
      HeldBy step s0 Q V (p.poll ω.record fuel x).1 (p.poll ω.record fuel x).2.2 := by
  induction p with
  | pure a => exact fun h hx => ⟨_, hx, h⟩
  | call e k =>
    rintro s0 s Q V ⟨w, l⟩ ⟨s1, h1, h2, h3⟩ hx
    have hx : walk step s0 l = some s := hx
    rw [Prog.poll]
    simp only [World.record]
    rcases ω.start e w with ⟨_ | r, w'⟩
    · exact ⟨s1, by simp [walk_append, hx, walk, h1], ⟨h2, h3⟩, h2⟩
    · obtain ⟨s2, h4, h5⟩ := h3 r
      exact ⟨s2, by simp [walk_append, hx, walk, h1, h4], h5⟩
  | wait e k =>
    rintro s0 s Q V ⟨w, l⟩ ⟨h2, h3⟩ hx
    have hx : walk step s0 l = some s := hx
    rw [Prog.poll]
    simp only [World.record]
    rcases ω.poll e w with ⟨_ | r, w'⟩
    · exact ⟨s, hx, ⟨h2, h3⟩, h2⟩
    · obtain ⟨s2, h4, h5⟩ := h3 r
      exact ⟨s2, by simp [walk_append, hx, walk, h4], h5⟩
  | bind p k ihp ihk =>
    intro s0 s Q V x h hx
    have := ihp h hx
    rw [Prog.poll]
    rcases hp : p.poll ω.record fuel x with ⟨r, x1⟩
    rw [hp] at this
    cases r with
    | ready b =>
      obtain ⟨s', h1, h2⟩ := this
      exact ihk b h2 h1
    | pending p' => exact this
    | panicked => trivial
    | diverged => trivial
  | join p q k ihp ihq =>
    intro s0 s Q V x h hx
    have := ihp h.2 hx
    rw [Prog.poll]
    rcases hp : p.poll ω.record fuel x with ⟨r, x1⟩
    rw [hp] at this
    cases r with
    | ready b =>
      obtain ⟨s', h1, h2, h3⟩ := this
      have h4 := h.1.poll ω fuel h1
      rcases hq : q.poll ω.record fuel x1 with ⟨r2, x2⟩
      rw [hq] at h4
      simp only [hq]
      cases r2 with
      | ready c => exact ⟨s', h4, h2 c⟩
      | pending q' =>
        obtain ⟨h5, h6⟩ := Rests.poll _ _ _ _ _ _ hq h3
        exact ⟨s', h4, ⟨(poll_pending _ _ _ _ _ _ hq).2 _ h.1, h2, h6⟩, h5⟩
      | panicked => trivial
      | diverged => trivial
    | pending p' =>
      obtain ⟨s', h1, h2, h3, h3'⟩ := this
      have h4 := h.1.poll ω fuel h1
      rcases hq : q.poll ω.record fuel x1 with ⟨r2, x2⟩
      rw [hq] at h4
      simp only [hq]
      cases r2 with
      | ready c =>
        refine ⟨s', h4, ⟨trivial, h2.mono (fun b s'' hb => ?_) (fun s'' l hl => ?_)⟩, ?_⟩
        · exact ⟨hb.1, trivial⟩
        · exact ⟨hl.1, trivial⟩
        · simpa [waits] using h3
      | pending q' =>
        have hq' := fun {L} => Rests.poll _ _ _ _ _ _ hq (L := L)
        refine ⟨s', h4, ⟨(poll_pending _ _ _ _ _ _ hq).2 _ h.1,
          h2.mono (fun b s'' hb => ⟨hb.1, (hq' hb.2).2⟩)
            (fun s'' l hl => ⟨hl.1, (hq' hl.2).2⟩)⟩, (hq' h3').1⟩
      | panicked => trivial
      | diverged => trivial
    | panicked => trivial
    | diverged => trivial
  | select p q k ihp ihq =>
    intro s0 s Q V x h hx
    have := ihp h.2 hx
    rw [Prog.poll]
    rcases hp : p.poll ω.record fuel x with ⟨r, x1⟩
    rw [hp] at this
    cases r with
    | ready b => exact this
    | pending p' =>
      obtain ⟨s', h1, h2, h3, h3'⟩ := this
      have h4 := h.1.poll ω fuel h1
      rcases hq : q.poll ω.record fuel x1 with ⟨r2, x2⟩
      rw [hq] at h4
      simp only [hq]
      cases r2 with
      | ready c => exact ⟨s', h4, h3' c⟩
      | pending q' =>
        have hq' := fun {L} => Rests.poll _ _ _ _ _ _ hq (L := L)
        exact ⟨s', h4, ⟨(poll_pending _ _ _ _ _ _ hq).2 _ h.1,
          h2.mono (fun b s'' hb => hb) (fun s'' l hl => ⟨(hq' hl.1).2, hl.2⟩)⟩, (hq' h3).1⟩
      | panicked => trivial
      | diverged => trivial
    | panicked => trivial
    | diverged => trivial
  | loop body x0 ih =>
    rintro s0 s Q V x ⟨I, h1, h2⟩ hx
    rw [Prog.poll]
    exact pollLoop_holds h2 (fun x s hI w hw => ih x (h2 x s hI) hw) fuel x0 s h1 x hx
  | panic => exact fun _ _ => trivial

end Dot15d4.Csma
