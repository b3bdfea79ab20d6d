import Verif.Model.Prog

/-!
# Reasoning about asynchronous programs

`TripleW f P p Q W C`: started with a history satisfying `P`, `p` never panics, at every moment the
history satisfies `C`, whenever `p` is waiting it satisfies `W`, and when it returns `a` the history
satisfies `Q a`.  Histories are seen through the projection `f`, which drops the calls a statement
is not about.  `Triple` is the case `W = C`.
-/

namespace Dot15d4.Csma
open Dot15d4.Sync (Either)

variable {Eff : Type} {Ans : Eff → Type} {α β γ B σ : Type}

def TripleW (f : Ev Ans → Option B) (P : List B → Prop) (p : Prog Ans α)
    (Q : α → List B → Prop) (W C : List B → Prop) : Prop :=
  ∀ l t o, P l → Exec p t o → match o with
    | .cut => C (l ++ t.filterMap f)
    | .pending => W (l ++ t.filterMap f)
    | .done a => Q a (l ++ t.filterMap f)
    | .panicked => False

abbrev Triple (f : Ev Ans → Option B) (P : List B → Prop) (p : Prog Ans α)
    (Q : α → List B → Prop) (C : List B → Prop) : Prop := TripleW f P p Q C C

/-- Waiting is being somewhere in between. -/
theorem Exec.pending_cut {p : Prog Ans α} {t : List (Ev Ans)} (h : Exec p t .pending) :
    Exec p t .cut := by
  have key : ∀ {α' : Type} (p : Prog Ans α') t (o : Fin α'), Exec p t o → o = .pending →
      Exec p t .cut := by
    intro α' p t o he
    induction he with
    | callPending e k => exact fun _ => .callCut e k
    | waitPending e k => exact fun _ => .cut _
    | bindPending _ ih => exact fun _ => .bindCut (ih rfl)
    | bind h1 _ _ ih => exact fun e => .bind h1 (ih e)
    | joinPending h1 h2 hi _ _ => exact fun _ => .joinCut h1 h2 (by simp) (by simp) hi
    | joinFirst h1 h2 hi _ _ => exact fun _ => .joinCut h1 h2 (by simp) (by simp) hi
    | joinSecond h1 h2 hi _ _ => exact fun _ => .joinCut h1 h2 (by simp) (by simp) hi
    | selectPending _ _ hi ih1 ih2 => exact fun _ => .selectCut (ih1 rfl) (ih2 rfl) hi
    | loopPending _ ih => exact fun _ => .loopCut (ih rfl)
    | loopNext h1 _ _ ih => exact fun e => .loopNext h1 (ih e)
    | _ => intro e; cases e
  exact key p t _ h rfl

variable {f : Ev Ans → Option B} {P P' C C' W W' : List B → Prop}

theorem TripleW.conseq {p : Prog Ans α} {Q Q' : α → List B → Prop}
    (h : TripleW f P p Q W C) (hP : ∀ l, P' l → P l) (hQ : ∀ a l, Q a l → Q' a l)
    (hW : ∀ l, W l → W' l) (hC : ∀ l, C l → C' l) : TripleW f P' p Q' W' C' := by
  intro l t o hl he
  have := h l t o (hP l hl) he
  cases o with
  | cut => exact hC _ this
  | pending => exact hW _ this
  | done a => exact hQ _ _ this
  | panicked => exact this

theorem Triple.conseq {p : Prog Ans α} {Q Q' : α → List B → Prop}
    (h : Triple f P p Q C) (hP : ∀ l, P' l → P l) (hQ : ∀ a l, Q a l → Q' a l)
    (hC : ∀ l, C l → C' l) : Triple f P' p Q' C' := TripleW.conseq h hP hQ hC hC

theorem TripleW.pre {p : Prog Ans α} {Q : α → List B → Prop} (h : TripleW f P p Q W C)
    (hP : ∀ l, P' l → P l) : TripleW f P' p Q W C :=
  h.conseq hP (fun _ _ h => h) (fun _ h => h) (fun _ h => h)

theorem Triple.pre {p : Prog Ans α} {Q : α → List B → Prop} (h : Triple f P p Q C)
    (hP : ∀ l, P' l → P l) : Triple f P' p Q C := TripleW.pre h hP

theorem Triple.pure {a : α} {Q : α → List B → Prop} (h : ∀ l, P l → Q a l ∧ C l) :
    TripleW f P (.pure a) Q W C := by
  intro l t o hl he
  cases he <;> simp [h l hl]

theorem TripleW.call {e : Eff} {k : Ans e → α} {Q : α → List B → Prop}
    (h : ∀ l, P l → C l ∧ C (l ++ (f (.start e)).toList) ∧ W (l ++ (f (.start e)).toList) ∧
      ∀ r, Q (k r) (l ++ (f (.start e)).toList ++ (f (.ret e r)).toList)) :
    TripleW f P (.call e k) Q W C := by
  intro l t o hl he
  obtain ⟨h1, h2, hw, h3⟩ := h l hl
  cases he with
  | cut => simpa using h1
  | callCut =>
    cases hf : f (.start e) <;> simp_all
  | callPending =>
    cases hf : f (.start e) <;> simp_all
  | call _ _ r =>
    have := h3 r
    cases hf : f (.start e) <;> cases hf' : f (.ret e r) <;> simp_all

theorem Triple.call {e : Eff} {k : Ans e → α} {Q : α → List B → Prop}
    (h : ∀ l, P l → C l ∧ C (l ++ (f (.start e)).toList) ∧
      ∀ r, Q (k r) (l ++ (f (.start e)).toList ++ (f (.ret e r)).toList)) :
    Triple f P (.call e k) Q C :=
  TripleW.call fun l hl => ⟨(h l hl).1, (h l hl).2.1, (h l hl).2.1, (h l hl).2.2⟩

theorem TripleW.await {e : Eff} {Q : Ans e → List B → Prop}
    (h : ∀ l, P l → C l ∧ C (l ++ (f (.start e)).toList) ∧ W (l ++ (f (.start e)).toList) ∧
      ∀ r, Q r (l ++ (f (.start e)).toList ++ (f (.ret e r)).toList)) :
    TripleW f P (.await e) Q W C := TripleW.call h

theorem Triple.await {e : Eff} {Q : Ans e → List B → Prop}
    (h : ∀ l, P l → C l ∧ C (l ++ (f (.start e)).toList) ∧
      ∀ r, Q r (l ++ (f (.start e)).toList ++ (f (.ret e r)).toList)) :
    Triple f P (.await e) Q C := Triple.call h

/-- A call the projection does not see. -/
theorem Triple.await_neutral {e : Eff} (hs : f (.start e) = none) (hr : ∀ r, f (.ret e r) = none)
    {Q : Ans e → List B → Prop}
    (h : ∀ l, P l → C l ∧ ∀ r, Q r l) : Triple f P (.await e) Q C :=
  Triple.await fun l hl => by simpa [hs, hr] using ⟨(h l hl).1, (h l hl).2⟩

theorem Triple.bind {p : Prog Ans β} {k : β → Prog Ans α} {R : β → List B → Prop}
    {Q : α → List B → Prop} (hp : TripleW f P p R W C) (hk : ∀ b, TripleW f (R b) (k b) Q W C) :
    TripleW f P (.bind p k) Q W C := by
  intro l t o hl he
  cases he with
  | cut => exact hp l [] .cut hl (.cut p)
  | bindCut h => exact hp l t .cut hl h
  | bindPending h => exact hp l t .pending hl h
  | bindPanic h => exact hp l t .panicked hl h
  | bind h1 h2 =>
    have := hk _ _ _ _ (hp l _ _ hl h1) h2
    simpa only [List.filterMap_append, List.append_assoc] using this

theorem Triple.panic {Q : α → List B → Prop} (h : ∀ l, ¬ P l) : TripleW f P (.panic) Q W C :=
  fun l _ _ hl _ => absurd hl (h l)

theorem Triple.false {p : Prog Ans α} {Q : α → List B → Prop} (h : ∀ l, ¬ P l) :
    TripleW f P p Q W C :=
  fun l _ _ hl _ => absurd hl (h l)

theorem Triple.lift {x : Out α} {Q : α → List B → Prop}
    (h : ∀ l, P l → ∃ a, x = .ok a ∧ Q a l ∧ C l) : TripleW f P (Prog.lift x) Q W C := by
  cases x with
  | ok a =>
    refine Triple.pure fun l hl => ?_
    obtain ⟨a', ha, hq⟩ := h l hl
    cases ha
    exact hq
  | err => exact Triple.panic fun l hl => by obtain ⟨a, ha, _⟩ := h l hl; cases ha
  | panic => exact Triple.panic fun l hl => by obtain ⟨a, ha, _⟩ := h l hl; cases ha

theorem TripleW.when {c : Bool} {p : Prog Ans Unit} {Q : Unit → List B → Prop}
    (h1 : c = true → TripleW f P p Q W C) (h2 : c = false → ∀ l, P l → Q () l ∧ C l) :
    TripleW f P (Prog.when c p) Q W C := by
  cases c with
  | true => exact h1 rfl
  | false => exact Triple.pure (h2 rfl)

theorem TripleW.loop {body : σ → Prog Ans (Sum σ α)} {s : σ} {I : σ → List B → Prop}
    {Q : α → List B → Prop} (hC : ∀ s l, I s l → C l) (hQC : ∀ a l, Q a l → C l)
    (hbody : ∀ s, TripleW f (I s) (body s)
      (fun r l => match r with
        | .inl s' => I s' l
        | .inr a => Q a l) W C) :
    TripleW f (I s) (.loop body s) Q W C := by
  have key : ∀ {α' : Type} (p : Prog Ans α') t (o : Fin α'), Exec p t o →
      ∀ (hα : α' = α) (s : σ), HEq p (Prog.loop body s) → ∀ l, I s l →
        match o with
        | .cut => C (l ++ t.filterMap f)
        | .pending => W (l ++ t.filterMap f)
        | .done a => Q (hα ▸ a) (l ++ t.filterMap f)
        | .panicked => False := by
    intro α' p t o he
    induction he with
    | cut p => intro hα s hp l hl; simpa using hC s l hl
    | loopCut h _ =>
      intro hα s hp l hl
      subst hα
      cases hp
      exact hbody _ l _ .cut hl h
    | loopPending h _ =>
      intro hα s hp l hl
      subst hα
      cases hp
      exact hbody _ l _ .pending hl h
    | loopStop h _ =>
      intro hα s hp l hl
      subst hα
      cases hp
      exact hQC _ _ (hbody _ l _ (.done (.inr _)) hl h)
    | loopPanic h _ =>
      intro hα s hp l hl
      subst hα
      cases hp
      exact hbody _ l _ .panicked hl h
    | loopDone h _ =>
      intro hα s hp l hl
      subst hα
      cases hp
      exact hbody _ l _ (.done (.inr _)) hl h
    | loopNext h1 h2 _ ih2 =>
      intro hα s hp l hl
      subst hα
      cases hp
      have hi := hbody _ l _ (.done (.inl _)) hl h1
      have := ih2 rfl _ HEq.rfl _ hi
      simpa only [List.filterMap_append, List.append_assoc] using this
    | _ => intro hα s hp; subst hα; cases hp
  intro l t o hl he
  exact key _ t o he rfl s HEq.rfl l hl

theorem Triple.loop {body : σ → Prog Ans (Sum σ α)} {s : σ} {I : σ → List B → Prop}
    {Q : α → List B → Prop} (hC : ∀ s l, I s l → C l) (hQC : ∀ a l, Q a l → C l)
    (hbody : ∀ s, Triple f (I s) (body s)
      (fun r l => match r with
        | .inl s' => I s' l
        | .inr a => Q a l) C) :
    Triple f (I s) (.loop body s) Q C := TripleW.loop hC hQC hbody

/-- Programs none of whose calls the projection sees, and which do not panic. -/
def Neutral (f : Ev Ans → Option B) (p : Prog Ans α) : Prop :=
  ∀ t o, Exec p t o → t.filterMap f = [] ∧ o ≠ .panicked

theorem interleave_filterMap_left {t1 t2 t : List (Ev Ans)} (h : Interleave t1 t2 t)
    (h2 : t2.filterMap f = []) : t.filterMap f = t1.filterMap f := by
  induction h with
  | nil => rfl
  | left _ ih => simp [List.filterMap_cons, ih h2]
  | @right x t1 t2 t _ ih =>
    rw [List.filterMap_cons] at h2
    cases hx : f x with
    | none => rw [hx] at h2; simp [List.filterMap_cons, hx, ih h2]
    | some b => rw [hx] at h2; cases h2

theorem interleave_symm {E : Type} {t1 t2 t : List E} (h : Interleave t1 t2 t) :
    Interleave t2 t1 t := by
  induction h with
  | nil => exact .nil
  | left _ ih => exact .right ih
  | right _ ih => exact .left ih

theorem interleave_filterMap_right {t1 t2 t : List (Ev Ans)} (h : Interleave t1 t2 t)
    (h1 : t1.filterMap f = []) : t.filterMap f = t2.filterMap f :=
  interleave_filterMap_left (interleave_symm h) h1

/-- A join whose second branch the projection does not see. -/
theorem Triple.join_left {p : Prog Ans β} {q : Prog Ans γ} {k : β → γ → α}
    {Q : β → List B → Prop} {Q' : α → List B → Prop}
    (hp : Triple f P p Q C) (hQC : ∀ a l, Q a l → C l) (hq : Neutral f q)
    (hk : ∀ b c l, Q b l → Q' (k b c) l) :
    Triple f P (.join p q k) Q' C := by
  intro l t o hl he
  cases he with
  | cut => exact hp l [] .cut hl (.cut p)
  | @joinCut _ _ _ _ _ _ t1 t2 t o1 o2 h1 h2 hn1 hn2 hi =>
    rw [interleave_filterMap_left hi (hq _ _ h2).1]
    have := hp l _ o1 hl h1
    cases o1 with
    | cut => exact this
    | pending => exact this
    | done a => exact hQC _ _ this
    | panicked => exact absurd rfl hn1
  | joinPending h1 h2 hi =>
    rw [interleave_filterMap_left hi (hq _ _ h2).1]
    exact hp l _ .pending hl h1
  | joinFirst h1 h2 hi =>
    rw [interleave_filterMap_left hi (hq _ _ h2).1]
    exact hQC _ _ (hp l _ (.done _) hl h1)
  | joinSecond h1 h2 hi =>
    rw [interleave_filterMap_left hi (hq _ _ h2).1]
    exact hp l _ .pending hl h1
  | @joinPanic _ _ _ _ _ _ t1 t2 t o1 o2 h1 h2 hor hi =>
    rcases hor with rfl | rfl
    · exact hp l _ .panicked hl h1
    · exact absurd rfl (hq _ _ h2).2
  | join h1 h2 hi =>
    rw [interleave_filterMap_left hi (hq _ _ h2).1]
    exact hk _ _ _ (hp l _ (.done _) hl h1)

/-- A join whose first branch the projection does not see. -/
theorem Triple.join_right {p : Prog Ans β} {q : Prog Ans γ} {k : β → γ → α}
    {Q : γ → List B → Prop} {Q' : α → List B → Prop}
    (hq : Triple f P q Q C) (hQC : ∀ a l, Q a l → C l) (hp : Neutral f p)
    (hk : ∀ b c l, Q c l → Q' (k b c) l) :
    Triple f P (.join p q k) Q' C := by
  intro l t o hl he
  cases he with
  | cut => exact hq l [] .cut hl (.cut q)
  | @joinCut _ _ _ _ _ _ t1 t2 t o1 o2 h1 h2 hn1 hn2 hi =>
    rw [interleave_filterMap_right hi (hp _ _ h1).1]
    have := hq l _ o2 hl h2
    cases o2 with
    | cut => exact this
    | pending => exact this
    | done a => exact hQC _ _ this
    | panicked => exact absurd rfl hn2
  | joinPending h1 h2 hi =>
    rw [interleave_filterMap_right hi (hp _ _ h1).1]
    exact hq l _ .pending hl h2
  | joinFirst h1 h2 hi =>
    rw [interleave_filterMap_right hi (hp _ _ h1).1]
    exact hq l _ .pending hl h2
  | joinSecond h1 h2 hi =>
    rw [interleave_filterMap_right hi (hp _ _ h1).1]
    exact hQC _ _ (hq l _ (.done _) hl h2)
  | @joinPanic _ _ _ _ _ _ t1 t2 t o1 o2 h1 h2 hor hi =>
    rcases hor with rfl | rfl
    · exact absurd rfl (hp _ _ h1).2
    · exact hq l _ .panicked hl h2
  | join h1 h2 hi =>
    rw [interleave_filterMap_right hi (hp _ _ h1).1]
    exact hk _ _ _ (hq l _ (.done _) hl h2)

/-- A select whose second branch the projection does not see. -/
theorem TripleW.select_left {p : Prog Ans β} {q : Prog Ans γ} {k : Either β γ → α}
    {Q : β → List B → Prop} {Q' : α → List B → Prop}
    (hp : TripleW f P p Q W C) (hq : Neutral f q)
    (h1 : ∀ b l, Q b l → Q' (k (.first b)) l) (h2 : ∀ c l, W l → Q' (k (.second c)) l) :
    TripleW f P (.select p q k) Q' W C := by
  intro l t o hl he
  cases he with
  | cut => exact hp l [] .cut hl (.cut p)
  | selectCut h1 h2 hi =>
    rw [interleave_filterMap_left hi (hq _ _ h2).1]
    exact hp l _ .cut hl h1
  | selectPending h1 h2 hi =>
    rw [interleave_filterMap_left hi (hq _ _ h2).1]
    exact hp l _ .pending hl h1
  | @selectPanic _ _ _ _ _ _ t1 t2 t o1 o2 h1 h2 hor hi =>
    rcases hor with rfl | rfl
    · exact hp l _ .panicked hl h1
    · exact absurd rfl (hq _ _ h2).2
  | selectFirst0 e1 => exact h1 _ _ (hp l _ (.done _) hl e1)
  | selectFirst e1 e2 hi =>
    rw [interleave_filterMap_left hi (hq _ _ e2).1]
    exact h1 _ _ (hp l _ (.done _) hl e1)
  | selectSecond e1 e2 hi =>
    rw [interleave_filterMap_left hi (hq _ _ e2).1]
    exact h2 _ _ (hp l _ .pending hl e1)

theorem Triple.select_left {p : Prog Ans β} {q : Prog Ans γ} {k : Either β γ → α}
    {Q : β → List B → Prop} {Q' : α → List B → Prop}
    (hp : Triple f P p Q C) (hq : Neutral f q)
    (h1 : ∀ b l, Q b l → Q' (k (.first b)) l) (h2 : ∀ c l, C l → Q' (k (.second c)) l) :
    Triple f P (.select p q k) Q' C := TripleW.select_left hp hq h1 h2

/-- A select whose first branch the projection does not see. -/
theorem Triple.select_right {p : Prog Ans β} {q : Prog Ans γ} {k : Either β γ → α}
    {Q : γ → List B → Prop} {Q' : α → List B → Prop}
    (hq : Triple f P q Q C) (hp : Neutral f p)
    (h1 : ∀ b l, C l → Q' (k (.first b)) l) (h2 : ∀ c l, Q c l → Q' (k (.second c)) l) :
    Triple f P (.select p q k) Q' C := by
  intro l t o hl he
  cases he with
  | cut => exact hq l [] .cut hl (.cut q)
  | selectCut h1 h2 hi =>
    rw [interleave_filterMap_right hi (hp _ _ h1).1]
    exact hq l _ .cut hl h2
  | selectPending h1 h2 hi =>
    rw [interleave_filterMap_right hi (hp _ _ h1).1]
    exact hq l _ .pending hl h2
  | @selectPanic _ _ _ _ _ _ t1 t2 t o1 o2 h1 h2 hor hi =>
    rcases hor with rfl | rfl
    · exact absurd rfl (hp _ _ h1).2
    · exact hq l _ .panicked hl h2
  | selectFirst0 e1 =>
    rw [(hp _ _ e1).1]
    exact h1 _ _ (hq l _ .cut hl (.cut q))
  | selectFirst e1 e2 hi =>
    rw [interleave_filterMap_right hi (hp _ _ e1).1]
    exact h1 _ _ (hq l _ .pending hl e2)
  | selectSecond e1 e2 hi =>
    rw [interleave_filterMap_right hi (hp _ _ e1).1]
    exact h2 _ _ (hq l _ (.done _) hl e2)

theorem interleave_filterMap {t1 t2 t : List (Ev Ans)} (h : Interleave t1 t2 t) :
    Interleave (t1.filterMap f) (t2.filterMap f) (t.filterMap f) := by
  induction h with
  | nil => exact .nil
  | @left x t1 t2 t _ ih =>
    rw [List.filterMap_cons, List.filterMap_cons]
    cases f x with
    | none => exact ih
    | some b => exact .left ih
  | @right x t1 t2 t _ ih =>
    rw [List.filterMap_cons, List.filterMap_cons]
    cases f x with
    | none => exact ih
    | some b => exact .right ih

/-- What `p` does, seen through `f`, is in `S`. -/
def Traces (f : Ev Ans → Option B) (p : Prog Ans α) (S : List B → Option α → Prop) : Prop :=
  Triple f (fun l => l = []) p (fun a l => S l (some a)) (fun l => S l none)

theorem Traces.exec {p : Prog Ans α} {S : List B → Option α → Prop} (h : Traces f p S) {t}
    {o : Fin α} : Exec p t o → match o with
      | .cut => S (t.filterMap f) none
      | .pending => S (t.filterMap f) none
      | .done a => S (t.filterMap f) (some a)
      | .panicked => False := by
  intro he
  have := h [] t o rfl he
  simpa using this

/-- From traces back to triples. -/
theorem Traces.triple {p : Prog Ans α} {S : List B → Option α → Prop} (h : Traces f p S)
    {Q : α → List B → Prop}
    (hC : ∀ l u, P l → S u none → C (l ++ u))
    (hQ : ∀ l u a, P l → S u (some a) → Q a (l ++ u)) : Triple f P p Q C := by
  intro l t o hl he
  have := h.exec he
  cases o with
  | cut => exact hC _ _ hl this
  | pending => exact hC _ _ hl this
  | done a => exact hQ _ _ _ hl this
  | panicked => exact this

/-- A join whose branches are both seen. -/
theorem Triple.join {p : Prog Ans β} {q : Prog Ans γ} {k : β → γ → α}
    {S1 : List B → Option β → Prop} {S2 : List B → Option γ → Prop} {Q : α → List B → Prop}
    (hp : Traces f p S1) (hq : Traces f q S2)
    (h : ∀ l u1 u2 u o1 o2, P l → S1 u1 o1 → S2 u2 o2 → Interleave u1 u2 u →
      C (l ++ u) ∧ ∀ b c, o1 = some b → o2 = some c → Q (k b c) (l ++ u)) :
    Triple f P (.join p q k) Q C := by
  intro l t o hl he
  cases he with
  | cut => exact (h l _ _ _ _ _ hl (hp.exec (.cut p)) (hq.exec (.cut q)) .nil).1
  | @joinCut _ _ _ _ _ _ t1 t2 t o1 o2 h1 h2 n1 n2 hi =>
    have e1 := hp.exec h1
    have e2 := hq.exec h2
    have hi := interleave_filterMap (f := f) hi
    cases o1 <;> cases o2 <;> first | exact absurd rfl n1 | exact absurd rfl n2 | skip
    all_goals exact (h l _ _ _ _ _ hl e1 e2 hi).1
  | joinPending h1 h2 hi =>
    exact (h l _ _ _ _ _ hl (hp.exec h1) (hq.exec h2) (interleave_filterMap hi)).1
  | joinFirst h1 h2 hi =>
    exact (h l _ _ _ _ _ hl (hp.exec h1) (hq.exec h2) (interleave_filterMap hi)).1
  | joinSecond h1 h2 hi =>
    exact (h l _ _ _ _ _ hl (hp.exec h1) (hq.exec h2) (interleave_filterMap hi)).1
  | @joinPanic _ _ _ _ _ _ t1 t2 t o1 o2 h1 h2 hor hi =>
    rcases hor with rfl | rfl
    · exact hp.exec h1
    · exact hq.exec h2
  | join h1 h2 hi =>
    exact (h l _ _ _ _ _ hl (hp.exec h1) (hq.exec h2) (interleave_filterMap hi)).2 _ _ rfl rfl

/-- What `p` does, seen through `f`, is in `S`, when it waits in `S'`. -/
def TracesW (f : Ev Ans → Option B) (p : Prog Ans α) (S : List B → Option α → Prop)
    (S' : List B → Prop) : Prop :=
  TripleW f (fun l => l = []) p (fun a l => S l (some a)) S' (fun l => S l none)

theorem TracesW.exec {p : Prog Ans α} {S : List B → Option α → Prop} {S' : List B → Prop}
    (h : TracesW f p S S') {t} {o : Fin α} : Exec p t o → match o with
      | .cut => S (t.filterMap f) none
      | .pending => S' (t.filterMap f)
      | .done a => S (t.filterMap f) (some a)
      | .panicked => False := by
  intro he
  have := h [] t o rfl he
  simpa using this

/-- A select whose branches are both seen. -/
theorem Triple.select {p : Prog Ans β} {q : Prog Ans γ} {k : Either β γ → α}
    {S1 : List B → Option β → Prop} {S2 : List B → Option γ → Prop} {S1' S2' : List B → Prop}
    {Q : α → List B → Prop} (hp : TracesW f p S1 S1') (hq : TracesW f q S2 S2')
    (hcut : ∀ l u1 u2 u, P l → S1 u1 none → S2 u2 none → Interleave u1 u2 u → C (l ++ u))
    (h1 : ∀ l u1 u2 u b, P l → S1 u1 (some b) → (u2 = [] ∨ S2' u2) → Interleave u1 u2 u →
      Q (k (.first b)) (l ++ u))
    (h2 : ∀ l u1 u2 u c, P l → S1' u1 → S2 u2 (some c) → Interleave u1 u2 u →
      Q (k (.second c)) (l ++ u)) :
    Triple f P (.select p q k) Q C := by
  intro l t o hl he
  cases he with
  | cut => exact hcut l _ _ _ hl (hp.exec (.cut p)) (hq.exec (.cut q)) .nil
  | selectCut e1 e2 hi =>
    exact hcut l _ _ _ hl (hp.exec e1) (hq.exec e2) (interleave_filterMap hi)
  | selectPending e1 e2 hi =>
    exact hcut l _ _ _ hl (hp.exec e1.pending_cut) (hq.exec e2.pending_cut)
      (interleave_filterMap hi)
  | @selectPanic _ _ _ _ _ _ t1 t2 t o1 o2 h1 h2 hor hi =>
    rcases hor with rfl | rfl
    · exact hp.exec h1
    · exact hq.exec h2
  | selectFirst0 e1 =>
    refine h1 l _ [] _ _ hl (hp.exec e1) (Or.inl rfl) ?_
    have := interleave_filterMap (f := f) (t1 := t) (t2 := []) (t := t) ?_
    · exact this
    · clear e1
      induction t with
      | nil => exact .nil
      | cons x t ih => exact .left ih
  | selectFirst e1 e2 hi =>
    exact h1 l _ _ _ _ hl (hp.exec e1) (Or.inr (hq.exec e2)) (interleave_filterMap hi)
  | selectSecond e1 e2 hi =>
    exact h2 l _ _ _ _ hl (hp.exec e1) (hq.exec e2) (interleave_filterMap hi)

/-! ### Neutral programs -/

theorem Neutral.of_triple {p : Prog Ans α}
    (h : Triple f (fun l => l = []) p (fun _ l => l = []) (fun l => l = [])) : Neutral f p := by
  intro t o he
  have := h [] t o rfl he
  cases o <;> simp_all

theorem Neutral.triple {p : Prog Ans α} (h : Neutral f p) {Q : α → List B → Prop}
    (hq : ∀ l, P l → C l ∧ ∀ a, Q a l) : Triple f P p Q C := by
  intro l t o hl he
  obtain ⟨ht, ho⟩ := h t o he
  rw [ht, List.append_nil]
  cases o with
  | cut => exact (hq l hl).1
  | pending => exact (hq l hl).1
  | done a => exact (hq l hl).2 a
  | panicked => exact absurd rfl ho

theorem Neutral.pure (a : α) : Neutral f (Prog.pure a : Prog Ans α) :=
  .of_triple (Triple.pure fun l hl => ⟨hl, hl⟩)

theorem Neutral.await {e : Eff} (hs : f (.start e) = none) (hr : ∀ r, f (.ret e r) = none) :
    Neutral f (Prog.await e : Prog Ans _) :=
  .of_triple (Triple.await_neutral hs hr fun l hl => ⟨hl, fun _ => hl⟩)

theorem Neutral.bind {p : Prog Ans β} {k : β → Prog Ans α} (hp : Neutral f p)
    (hk : ∀ b, Neutral f (k b)) : Neutral f (.bind p k) :=
  .of_triple (Triple.bind (R := fun _ l => l = []) (hp.triple fun l hl => ⟨hl, fun _ => hl⟩)
    fun b => (hk b).triple fun l hl => ⟨hl, fun _ => hl⟩)

theorem Neutral.loop {body : σ → Prog Ans (Sum σ α)} (h : ∀ s, Neutral f (body s)) (s : σ) :
    Neutral f (.loop body s) :=
  .of_triple (Triple.loop (I := fun _ l => l = []) (fun _ _ h => h) (fun _ _ h => h) fun s =>
    (h s).triple fun l hl => ⟨hl, fun r => by cases r <;> exact hl⟩)

/-! ## Which calls a program makes -/

/-- The call of an entry. -/
def Ev.eff : Ev Ans → Eff
  | .start e => e
  | .ret e _ => e

/-- A program makes only calls in `S`. -/
def Prog.Only (S : Eff → Prop) : {α : Type} → Prog Ans α → Prop
  | _, .pure _ => True
  | _, .call e _ => S e
  | _, .wait e _ => S e
  | _, .bind p k => p.Only S ∧ ∀ b, (k b).Only S
  | _, .join p q _ => p.Only S ∧ q.Only S
  | _, .select p q _ => p.Only S ∧ q.Only S
  | _, .loop body _ => ∀ s, (body s).Only S
  | _, .panic => True

theorem interleave_forall {E : Type} {S : E → Prop} {t1 t2 t : List E} (h : Interleave t1 t2 t)
    (h1 : ∀ x ∈ t1, S x) (h2 : ∀ x ∈ t2, S x) : ∀ x ∈ t, S x := by
  induction h with
  | nil => simp
  | left _ ih =>
    intro x hx
    rcases List.mem_cons.1 hx with rfl | hx
    · exact h1 _ (by simp)
    · exact ih (fun y hy => h1 y (by simp [hy])) h2 x hx
  | right _ ih =>
    intro x hx
    rcases List.mem_cons.1 hx with rfl | hx
    · exact h2 _ (by simp)
    · exact ih h1 (fun y hy => h2 y (by simp [hy])) x hx

theorem Exec.only {S : Eff → Prop} {p : Prog Ans α} {t : List (Ev Ans)} {o : Fin α}
    (he : Exec p t o) : p.Only S → ∀ ev ∈ t, S ev.eff := by
  induction he with
  | cut => simp
  | pure => simp
  | callCut e k => intro h ev hev; simp only [List.mem_singleton] at hev; subst hev; exact h
  | callPending e k => intro h ev hev; simp only [List.mem_singleton] at hev; subst hev; exact h
  | call e k r =>
    intro h ev hev
    simp only [List.mem_cons, List.not_mem_nil, or_false] at hev
    rcases hev with rfl | rfl <;> exact h
  | waitPending => simp
  | wait e k r => intro h ev hev; simp only [List.mem_singleton] at hev; subst hev; exact h
  | bindCut _ ih => exact fun h => ih h.1
  | bindPending _ ih => exact fun h => ih h.1
  | bindPanic _ ih => exact fun h => ih h.1
  | bind _ _ ih1 ih2 =>
    intro h ev hev
    rcases List.mem_append.1 hev with hev | hev
    · exact ih1 h.1 ev hev
    · exact ih2 (h.2 _) ev hev
  | joinCut _ _ _ _ hi ih1 ih2 => exact fun h => interleave_forall hi (ih1 h.1) (ih2 h.2)
  | joinPending _ _ hi ih1 ih2 => exact fun h => interleave_forall hi (ih1 h.1) (ih2 h.2)
  | joinFirst _ _ hi ih1 ih2 => exact fun h => interleave_forall hi (ih1 h.1) (ih2 h.2)
  | joinSecond _ _ hi ih1 ih2 => exact fun h => interleave_forall hi (ih1 h.1) (ih2 h.2)
  | joinPanic _ _ _ hi ih1 ih2 => exact fun h => interleave_forall hi (ih1 h.1) (ih2 h.2)
  | join _ _ hi ih1 ih2 => exact fun h => interleave_forall hi (ih1 h.1) (ih2 h.2)
  | selectCut _ _ hi ih1 ih2 => exact fun h => interleave_forall hi (ih1 h.1) (ih2 h.2)
  | selectPanic _ _ _ hi ih1 ih2 => exact fun h => interleave_forall hi (ih1 h.1) (ih2 h.2)
  | selectPending _ _ hi ih1 ih2 => exact fun h => interleave_forall hi (ih1 h.1) (ih2 h.2)
  | selectFirst0 _ ih => exact fun h => ih h.1
  | selectFirst _ _ hi ih1 ih2 => exact fun h => interleave_forall hi (ih1 h.1) (ih2 h.2)
  | selectSecond _ _ hi ih1 ih2 => exact fun h => interleave_forall hi (ih1 h.1) (ih2 h.2)
  | loopCut _ ih => exact fun h => ih (h _)
  | loopPending _ ih => exact fun h => ih (h _)
  | loopStop _ ih => exact fun h => ih (h _)
  | loopPanic _ ih => exact fun h => ih (h _)
  | loopDone _ ih => exact fun h => ih (h _)
  | loopNext _ _ ih1 ih2 =>
    intro h ev hev
    rcases List.mem_append.1 hev with hev | hev
    · exact ih1 (h _) ev hev
    · exact ih2 h ev hev
  | panic => simp

/-- A program that does not panic and makes only calls the projection does not see. -/
theorem Neutral.of_only {S : Eff → Prop} {p : Prog Ans α} (h : p.Only S)
    (hp : ∀ t, ¬ Exec p t .panicked) (hf : ∀ ev, S (Ev.eff ev) → f ev = none) : Neutral f p := by
  intro t o he
  refine ⟨?_, ?_⟩
  · rw [List.filterMap_eq_nil_iff]
    exact fun ev hev => hf ev (he.only h ev hev)
  · rintro rfl
    exact hp t he

end Dot15d4.Csma
