import Verif.Lemmas.Protocol
import Verif.Spec.CsmaLock
import Verif.Props.CsmaDevice

/-!
# C57: exclusive use of the radio
-/

namespace Dot15d4.Props
open Dot15d4 Out Spec Csma
open Dot15d4.Sync (Either)

/-! ## Each task keeps to the protocol -/

/-- Calls the radio protocol does not see. -/
def NotRadio (e : Csma.Call) : Prop :=
  match e.2 with
  | .tryLock => False
  | .lock => False
  | .unlock => False
  | .radioTransmit _ _ => False
  | .radioReceive _ => False
  | _ => True

theorem notRadio_unseen (tid : Tid) (e : Csma.Call) (h : NotRadio e) (s : RadioUse) :
    radioStep tid s (.start e) = some s ∧ ∀ r, radioStep tid s (.ret e r) = some s := by
  obtain ⟨i, op⟩ := e
  cases op <;> first | exact h.elim | exact ⟨rfl, fun _ => rfl⟩

theorem other_unseen (tid : Tid) (e : Csma.Call) (h : e.1 ≠ tid) (s : RadioUse) :
    radioStep tid s (.start e) = some s ∧ ∀ r, radioStep tid s (.ret e r) = some s := by
  obtain ⟨i, op⟩ := e
  have h : ¬ i = tid := h
  have key : ∀ ev : Ev CallAns, (∀ x, radioEv ev = some x → x.1 = i) →
      radioStep tid s ev = some s := by
    intro ev hev
    rw [radioStep]
    cases hx : radioEv ev with
    | none => rfl
    | some x =>
      obtain ⟨j, e⟩ := x
      have : j = i := hev _ hx
      subst this
      simp [h]
  refine ⟨key _ ?_, fun r => key _ ?_⟩
  · intro x hx
    cases op <;> simp [radioEv] at hx <;> rw [← hx]
  · intro x hx
    cases op with
    | tryLock =>
      simp only [radioEv] at hx
      split at hx
      · cases hx; rfl
      · cases hx
    | _ => simp [radioEv] at hx; try rw [← hx]

abbrev RadioKeeps {α : Type} (tid : Tid) (s : RadioUse) (p : Csma.Task α)
    (Q : α → RadioUse → Prop) (W : RadioUse → Prop) : Prop := Keeps (radioStep tid) s p Q W

/-- A call the protocol does not see. -/
theorem RadioKeeps.other {tid : Tid} {s : RadioUse} {e : Csma.Call} {W : RadioUse → Prop}
    (h : NotRadio e) (hw : W s) :
    RadioKeeps tid s (Prog.await e) (fun _ s' => s' = s) W :=
  Keeps.await (notRadio_unseen tid e h s).1 hw fun r => ⟨s, (notRadio_unseen tid e h s).2 r, rfl⟩

theorem RadioKeeps.unlock {tid : Tid} {s : RadioUse} {W : RadioUse → Prop}
    (h : s = .held ∨ s = .receiving) (hw : W .free) :
    RadioKeeps tid s (Prog.await ((tid, .unlock) : Csma.Call)) (fun _ s' => s' = .free) W := by
  refine Keeps.await (s1 := .free) ?_ hw fun r => ⟨.free, rfl, rfl⟩
  rcases h with rfl | rfl <;> simp [radioStep, radioEv, RadioUse.next]

theorem RadioKeeps.transmit {tid : Tid} {b : Arr 128} {cfg : TxConfig} {W : RadioUse → Prop}
    (hw : W .transmitting) :
    RadioKeeps tid .held (Prog.await ((tid, .radioTransmit b cfg) : Csma.Call))
      (fun _ s' => s' = .held) W :=
  Keeps.await (s1 := .transmitting) (by simp [radioStep, radioEv, RadioUse.next]) hw fun r =>
    ⟨.held, by simp [radioStep, radioEv, RadioUse.next], rfl⟩

theorem RadioKeeps.receive {tid : Tid} {cfg : RxConfig} {W : RadioUse → Prop}
    (hw : W .receiving) :
    RadioKeeps tid .held (Prog.await ((tid, .radioReceive cfg) : Csma.Call))
      (fun _ s' => s' = .held) W :=
  Keeps.await (s1 := .receiving) (by simp [radioStep, radioEv, RadioUse.next]) hw fun r =>
    ⟨.held, by simp [radioStep, radioEv, RadioUse.next], rfl⟩

/-- What the protocol's state is when the task has a guard, or not. -/
def useOf (held : Bool) : RadioUse := if held then .held else .free

/-- Anything. -/
abbrev anyUse : RadioUse → Prop := fun _ => True

theorem acquireLock_keeps (held : Bool) :
    RadioKeeps .tx (useOf held) (acquireLock held) (fun _ s' => s' = .held) anyUse := by
  cases held with
  | true => exact Keeps.pure rfl
  | false =>
    refine Keeps.loop (I := fun _ s => s = .free) rfl ?_
    rintro _ s rfl
    refine Keeps.bind (R := fun (r : Bool) s' => s' = useOf r) ?_ ?_
    · refine Keeps.await (s1 := .free) rfl trivial fun (r : Bool) => ⟨useOf r, ?_, rfl⟩
      cases r <;> rfl
    · rintro r s' rfl
      cases r with
      | true => exact Keeps.pure rfl
      | false =>
        refine Keeps.bind (RadioKeeps.other trivial trivial) ?_
        rintro _ s' rfl
        exact Keeps.pure rfl

theorem performBackoff_notRadio (c : Consts) (bk : Backoff) :
    (performBackoff c bk).Only NotRadio := by
  cases bk with
  | none => trivial
  | exponential be =>
    exact ⟨lift_only _ _, fun _ => ⟨trivial, fun _ => ⟨trivial, fun _ => ⟨trivial, fun _ =>
      ⟨trivial, fun _ => trivial⟩⟩⟩⟩⟩

theorem Only.mono {α : Type} {S S' : Csma.Call → Prop} (h : ∀ e, S e → S' e) {p : Csma.Task α} :
    p.Only S → p.Only S' := by
  induction p with
  | pure => exact fun _ => trivial
  | call e k => exact h e
  | wait e k => exact h e
  | bind p k ihp ihk => exact fun hp => ⟨ihp hp.1, fun b => ihk b (hp.2 b)⟩
  | join p q k ihp ihq => exact fun hp => ⟨ihp hp.1, ihq hp.2⟩
  | select p q k ihp ihq => exact fun hp => ⟨ihp hp.1, ihq hp.2⟩
  | loop body s ih => exact fun hp s => ih s (hp s)
  | panic => exact fun _ => trivial

theorem unseen_notRadio {α : Type} {p : Csma.Task α} (tid : Tid) (h : p.Only NotRadio) :
    Unseen (radioStep tid) p := Only.mono (notRadio_unseen tid) h

theorem transmitCca_keeps (c : Consts) (ch : PhyChannel) (b : Arr 128) (held : Bool)
    (bk : Backoff) :
    RadioKeeps .tx (useOf held) (transmitCca c ch b held bk)
      (fun r s' => s' = useOf r.2 ∧ (r.1 = false → r.2 = false)) anyUse := by
  refine Keeps.loop (I := fun (x : CcaState) s => s = useOf x.held) rfl ?_
  rintro x s rfl
  rw [ccaRound]
  split
  · refine Keeps.bind (acquireLock_keeps x.held) ?_
    rintro _ s' rfl
    refine Keeps.bind (RadioKeeps.transmit trivial) ?_
    rintro (r : Bool) s' rfl
    cases r with
    | true => exact Keeps.pure ⟨rfl, fun h => h⟩
    | false =>
      refine Keeps.bind (RadioKeeps.unlock (Or.inl rfl) trivial) ?_
      rintro _ s' rfl
      show Keeps _ _ (ite _ _ _) _ _
      split
      · exact Keeps.pure ⟨rfl, fun h => h⟩
      · refine Keeps.bind (R := fun _ s' => s' = .free)
          (Keeps.join_left (Q := fun _ s' => s' = .free)
            ((unseen_notRadio .tx (performBackoff_notRadio c _)).keeps (fun _ => rfl) trivial)
            (unseen_notRadio .tx (p := tx _) trivial) (fun _ _ _ h => h) (fun _ _ _ => trivial)) ?_
        rintro _ s' rfl
        exact Keeps.pure rfl
  · exact Keeps.pure ⟨rfl, fun h => absurd h (by simp)⟩

/-- Holding the radio, idly or receiving. -/
def Holding (s : RadioUse) : Prop := s = .held ∨ s = .receiving

theorem waitForValidAck_keeps (F : RadioFormat) (ch : PhyChannel) (seq : Byte) :
    RadioKeeps .tx .held (waitForValidAck F ch seq) (fun _ s' => s' = .held) Holding := by
  refine Keeps.loop (I := fun _ s => s = .held) rfl ?_
  rintro _ s rfl
  refine Keeps.bind (RadioKeeps.receive (Or.inr rfl)) ?_
  rintro (r : Bool × Arr 128) s' rfl
  obtain ⟨r, b⟩ := r
  cases r with
  | false => exact Keeps.pure rfl
  | true =>
    refine Keeps.bind (R := fun _ s' => s' = .held) (Keeps.lift fun _ _ => rfl) ?_
    rintro v s' rfl
    cases v <;> exact Keeps.pure rfl

theorem when_unlock_keeps (tid : Tid) (held : Bool) :
    RadioKeeps tid (useOf held) (Prog.when held (Prog.await ((tid, .unlock) : Csma.Call)))
      (fun _ s' => s' = .free) anyUse := by
  cases held with
  | true => exact RadioKeeps.unlock (Or.inl rfl) trivial
  | false => exact Keeps.pure rfl

theorem ackRound_keeps (D : Device) (b : Arr 128) (seq : Option (Byte × Byte)) (i : Nat) :
    RadioKeeps .tx .free (ackRound D b seq i) (fun _ s' => s' = .free) anyUse := by
  rw [ackRound]
  split
  · refine Keeps.bind (transmitCca_keeps _ _ _ false _) ?_
    rintro ⟨r, held⟩ s' ⟨rfl, hr⟩
    cases r with
    | false =>
      cases hr rfl
      refine Keeps.bind (RadioKeeps.other trivial trivial) ?_
      rintro _ s' rfl
      exact Keeps.pure rfl
    | true =>
      cases seq with
      | none =>
        refine Keeps.bind (when_unlock_keeps .tx held) ?_
        rintro _ s' rfl
        exact Keeps.pure rfl
      | some sq =>
        refine Keeps.bind (acquireLock_keeps held) ?_
        rintro _ s' rfl
        refine Keeps.bind (R := fun _ s' => Holding s') (Keeps.conseq (W := Holding)
          (Keeps.select_left (waitForValidAck_keeps _ _ _)
            (unseen_notRadio .tx (p := tx _) trivial) (fun _ _ h => Or.inl h) (fun _ _ h => h))
          (fun _ _ h => h) (fun _ _ => trivial)) ?_
        intro a s' hs'
        refine Keeps.bind (RadioKeeps.unlock hs' trivial) ?_
        rintro _ s' rfl
        cases a with
        | true => exact Keeps.pure rfl
        | false =>
          refine Keeps.bind (RadioKeeps.other trivial trivial) ?_
          rintro _ s' rfl
          show Keeps _ _ (ite _ _ _) _ _
          split
          · refine Keeps.bind (RadioKeeps.other trivial trivial) ?_
            rintro _ s' rfl
            exact Keeps.pure rfl
          · refine Keeps.bind (RadioKeeps.other trivial trivial) ?_
            rintro _ s' rfl
            exact Keeps.pure rfl
  · exact Keeps.pure rfl

theorem reportTaskError_keeps {α : Type} (r : Except TaskError α) (s : RadioUse) :
    RadioKeeps .tx s (reportTaskError r) (fun _ s' => s' = s) anyUse := by
  cases r with
  | ok a => exact Keeps.pure rfl
  | error e => cases e <;> exact RadioKeeps.other trivial trivial

theorem transmitTask_keeps (D : Device) :
    RadioKeeps .tx .free (transmitTask D) (fun _ _ => True) anyUse := by
  refine Keeps.loop (I := fun _ s => s = .free) rfl ?_
  rintro _ s rfl
  refine Keeps.bind (R := fun _ s => s = .free) ?_ ?_
  · refine Keeps.bind (RadioKeeps.other trivial trivial) ?_
    rintro _ s rfl
    refine Keeps.bind (RadioKeeps.other trivial trivial) ?_
    rintro _ s rfl
    refine Keeps.bind (R := fun _ s => s = .free) (Keeps.lift fun _ _ => rfl) ?_
    rintro _ s rfl
    refine Keeps.bind (reportTaskError_keeps _ _) ?_
    rintro _ s rfl
    refine Keeps.bind (R := fun _ s => s = .free) (Keeps.lift fun _ _ => rfl) ?_
    rintro _ s rfl
    refine Keeps.bind (reportTaskError_keeps _ _) ?_
    rintro _ s rfl
    refine Keeps.bind (R := fun _ s => s = .free) (Keeps.lift fun _ _ => rfl) ?_
    rintro _ s rfl
    refine Keeps.loop (I := fun _ s => s = .free) rfl ?_
    rintro i s rfl
    exact (ackRound_keeps D _ _ i).conseq (fun r s h => by cases r <;> exact h) (fun _ h => h)
  · rintro _ s rfl
    exact Keeps.pure rfl

theorem acknowledge_keeps (D : Device) (a : Bool) (seq : Option Byte) (b : Arr 128) :
    RadioKeeps .rx .held (acknowledge D a seq b) (fun x s' => s' = useOf x.held) anyUse := by
  cases a with
  | false =>
    refine Keeps.bind (RadioKeeps.unlock (Or.inl rfl) trivial) ?_
    rintro _ s rfl
    exact Keeps.pure rfl
  | true =>
    cases seq with
    | none => exact Keeps.pure rfl
    | some sq =>
      refine Keeps.bind (R := fun _ s => s = .held) (Keeps.lift fun _ _ => rfl) ?_
      rintro _ s rfl
      refine Keeps.bind (R := fun _ s => s = .held) (Keeps.lift fun _ _ => rfl) ?_
      rintro _ s rfl
      refine Keeps.bind (R := fun _ s => s = .held) (Keeps.lift fun _ _ => rfl) ?_
      rintro _ s rfl
      refine Keeps.bind (RadioKeeps.other trivial trivial) ?_
      rintro _ s rfl
      refine Keeps.bind (RadioKeeps.transmit trivial) ?_
      rintro _ s rfl
      exact Keeps.pure rfl

theorem handleReceived_keeps (D : Device) (x : RxState) (b : Arr 128) :
    RadioKeeps .rx .held (handleReceived D x b) (fun x s' => s' = useOf x.held) anyUse := by
  refine Keeps.bind (R := fun _ s => s = .held) (Keeps.lift fun _ _ => rfl) ?_
  rintro v s rfl
  cases v with
  | none => exact Keeps.pure rfl
  | some y =>
    exact Keeps.join_left (acknowledge_keeps D _ _ _)
      (unseen_notRadio .rx (p := rx _) trivial) (fun _ _ _ h => h) (fun _ _ _ => trivial)

theorem giveUp_keeps (x : RxState) {s : RadioUse} (h : Holding s) :
    RadioKeeps .rx s (giveUp x) (fun x s' => s' = useOf x.held) anyUse := by
  refine Keeps.bind (RadioKeeps.unlock h trivial) ?_
  rintro _ s rfl
  exact Keeps.pure rfl

theorem lock_keeps (held : Bool) :
    RadioKeeps .rx (useOf held) (Prog.when (!held) (rx .lock)) (fun _ s' => s' = .held) anyUse := by
  cases held with
  | true => exact Keeps.pure rfl
  | false => exact Keeps.await (s1 := .free) rfl trivial fun _ => ⟨.held, rfl, rfl⟩

theorem receiveTask_keeps (D : Device) :
    RadioKeeps .rx .free (receiveTask D) (fun _ _ => True) anyUse := by
  refine Keeps.loop (I := fun x s => s = useOf x.held) rfl ?_
  rintro x s rfl
  refine Keeps.bind (R := fun (x : RxState) s => s = useOf x.held) ?_ ?_
  · refine Keeps.bind (RadioKeeps.other trivial trivial) ?_
    rintro _ s rfl
    refine Keeps.bind (lock_keeps _) ?_
    rintro _ s rfl
    refine Keeps.bind (R := fun (r : Bool × Option (Arr 128)) s =>
      Holding s ∧ (r.2.isSome = true → s = .held)) (Keeps.conseq (W := Holding)
          (Keeps.select_left (RadioKeeps.receive (Or.inr rfl))
            (unseen_notRadio .rx (p := rx _) trivial)
            (fun _ _ h => ⟨Or.inl h, fun _ => h⟩) (fun _ _ h => ⟨h, fun h => absurd h (by simp)⟩))
          (fun _ _ h => h) (fun _ _ => trivial)) ?_
    rintro ⟨r, ob⟩ s ⟨hs, hob⟩
    cases r with
    | false => exact giveUp_keeps x hs
    | true =>
      cases ob with
      | none => exact giveUp_keeps x hs
      | some b =>
        cases hob rfl
        exact handleReceived_keeps D x b
  · rintro x s rfl
    exact Keeps.pure rfl

/-- **C57**, the protocol: at every moment of every execution of every device, whatever its
surroundings do, both tasks have kept to the protocol of `RadioUse.next`. -/
theorem C57_protocol (D : Device) (tid : Tid) {t : List (Ev CallAns)} {o : Fin Empty}
    (he : Exec (runDevice D) t o) : usage tid t ≠ none := by
  have key : RadioKeeps tid .free (runDevice D) (fun _ _ => True) anyUse := by
    refine Keeps.bind (RadioKeeps.other trivial trivial) ?_
    rintro _ s rfl
    refine Keeps.bind (R := fun _ _ => True) ?_ (fun _ _ _ => Keeps.panic)
    cases tid with
    | tx =>
      exact Keeps.select_left (transmitTask_keeps D)
        (Only.mono (fun e (h : IsRx e) => other_unseen .tx e (by rw [h]; decide))
          (receiveTask_only D)) (fun _ _ _ => trivial) (fun _ _ _ => trivial)
    | rx =>
      exact Keeps.select_right (receiveTask_keeps D)
        (Only.mono (fun e (h : IsTx e) => other_unseen .rx e (by rw [h]; decide))
          (transmitTask_only D)) (fun _ => trivial) (fun _ _ _ => trivial) (fun _ _ _ => trivial)
  obtain ⟨s', h, -⟩ := key t o he
  rw [usage, h]
  simp

/-! ## With the mutex -/

/-- At every moment of `l` at most one task uses the radio. -/
def Exclusive (l : List (Ev CallAns)) : Prop :=
  ∀ l', l' <+: l → ∃ a b, usage .tx l' = some a ∧ usage .rx l' = some b ∧ (a = .free ∨ b = .free)

/-- The invariant: as long as both tasks keep to the protocol, they exclude each other, and the
mutex is locked iff one of them uses the radio. -/
def LockInv (locked : Bool) (l : List (Ev CallAns)) : Prop :=
  ∀ a b, usage .tx l = some a → usage .rx l = some b →
    Exclusive l ∧ (locked = true ↔ a ≠ .free ∨ b ≠ .free)

theorem usage_snoc (tid : Tid) (l : List (Ev CallAns)) (ev : Ev CallAns) :
    usage tid (l ++ [ev]) = (usage tid l).bind fun s => radioStep tid s ev := by
  rw [usage, walk_append, ← usage]
  congr 1
  funext s
  exact walk_singleton _ _ _

theorem exclusive_snoc {l : List (Ev CallAns)} {ev : Ev CallAns} (h : Exclusive l) {a b : RadioUse}
    (ha : usage .tx (l ++ [ev]) = some a) (hb : usage .rx (l ++ [ev]) = some b)
    (hab : a = .free ∨ b = .free) : Exclusive (l ++ [ev]) := by
  intro l' hl'
  rcases List.prefix_concat_iff.1 hl' with rfl | hl'
  · exact ⟨a, b, ha, hb, hab⟩
  · exact h l' hl'

/-- An entry that is neither getting the radio nor giving it back. -/
def Ordinary (ev : Ev CallAns) : Prop :=
  ∀ i e, radioEv ev = some (i, e) → e ≠ .acquired ∧ e ≠ .released

theorem next_ordinary {s s' : RadioUse} {e : RadioEv} (h : s.next e = some s')
    (he : e ≠ .acquired ∧ e ≠ .released) : s ≠ .free ∧ s' ≠ .free := by
  cases s <;> cases e <;> simp_all [RadioUse.next] <;> subst h <;> decide

theorem LockInv.ordinary {k : Bool} {l : List (Ev CallAns)} {ev : Ev CallAns} (h : LockInv k l)
    (ho : Ordinary ev) : LockInv k (l ++ [ev]) := by
  intro a b ha hb
  have ha' := ha
  have hb' := hb
  rw [usage_snoc, Option.bind_eq_some_iff] at ha' hb'
  obtain ⟨a0, ha0, ha1⟩ := ha'
  obtain ⟨b0, hb0, hb1⟩ := hb'
  obtain ⟨hx, hk⟩ := h a0 b0 ha0 hb0
  have key : ∀ {tid s s'}, radioStep tid s ev = some s' → (s = .free ↔ s' = .free) := by
    intro tid s s' hs
    rw [radioStep] at hs
    cases hr : radioEv ev with
    | none => rw [hr] at hs; cases hs; rfl
    | some x =>
      obtain ⟨i, e⟩ := x
      rw [hr] at hs
      simp only at hs
      split at hs
      · obtain ⟨h1, h2⟩ := next_ordinary hs (ho i e hr)
        exact ⟨fun h => absurd h h1, fun h => absurd h h2⟩
      · cases hs; rfl
  refine ⟨exclusive_snoc hx ha hb ?_, ?_⟩
  · obtain ⟨a', b', e1, e2, e3⟩ := hx l (List.prefix_refl _)
    rw [ha0] at e1
    rw [hb0] at e2
    cases e1
    cases e2
    rw [← key ha1, ← key hb1]
    exact e3
  · rw [hk, ne_eq, ne_eq, key ha1, key hb1]

theorem LockInv.acquired {l : List (Ev CallAns)} {ev : Ev CallAns} {i : Tid}
    (h : LockInv false l) (he : radioEv ev = some (i, .acquired)) : LockInv true (l ++ [ev]) := by
  intro a b ha hb
  have ha' := ha
  have hb' := hb
  rw [usage_snoc, Option.bind_eq_some_iff] at ha' hb'
  obtain ⟨a0, ha0, ha1⟩ := ha'
  obtain ⟨b0, hb0, hb1⟩ := hb'
  obtain ⟨hx, hk⟩ := h a0 b0 ha0 hb0
  have hf : a0 = .free ∧ b0 = .free := by
    by_cases h1 : a0 = .free <;> by_cases h2 : b0 = .free <;> simp_all
  obtain ⟨rfl, rfl⟩ := hf
  rw [radioStep, he] at ha1 hb1
  cases i with
  | tx =>
    simp only [if_pos, reduceCtorEq, if_false] at ha1 hb1
    cases ha1
    cases hb1
    exact ⟨exclusive_snoc hx ha hb (Or.inr rfl), by simp⟩
  | rx =>
    simp only [if_pos, reduceCtorEq, if_false] at ha1 hb1
    cases ha1
    cases hb1
    exact ⟨exclusive_snoc hx ha hb (Or.inl rfl), by simp⟩

theorem next_released {s s' : RadioUse} (h : s.next .released = some s') :
    s ≠ .free ∧ s' = .free := by
  cases s <;> simp_all [RadioUse.next] <;> subst h <;> decide

theorem LockInv.released {k : Bool} {l : List (Ev CallAns)} {ev : Ev CallAns} {i : Tid}
    (h : LockInv k l) (he : radioEv ev = some (i, .released)) : LockInv false (l ++ [ev]) := by
  intro a b ha hb
  have ha' := ha
  have hb' := hb
  rw [usage_snoc, Option.bind_eq_some_iff] at ha' hb'
  obtain ⟨a0, ha0, ha1⟩ := ha'
  obtain ⟨b0, hb0, hb1⟩ := hb'
  obtain ⟨hx, hk⟩ := h a0 b0 ha0 hb0
  obtain ⟨a', b', e1, e2, e3⟩ := hx l (List.prefix_refl _)
  rw [ha0] at e1
  rw [hb0] at e2
  cases e1
  cases e2
  rw [radioStep, he] at ha1 hb1
  cases i with
  | tx =>
    simp only [if_pos, reduceCtorEq, if_false] at ha1 hb1
    cases hb1
    obtain ⟨h1, rfl⟩ := next_released ha1
    have : b = .free := by simpa [h1] using e3
    subst this
    exact ⟨exclusive_snoc hx ha hb (Or.inr rfl), by simp⟩
  | rx =>
    simp only [if_pos, reduceCtorEq, if_false] at ha1 hb1
    cases ha1
    obtain ⟨h1, rfl⟩ := next_released hb1
    have : a = .free := by simpa [h1] using e3
    subst this
    exact ⟨exclusive_snoc hx ha hb (Or.inl rfl), by simp⟩

theorem ordinary_none {ev : Ev CallAns} (h : radioEv ev = none) : Ordinary ev := by
  intro i e he
  rw [h] at he
  cases he

theorem ordinary_some {ev : Ev CallAns} {i : Tid} {e : RadioEv} (h : radioEv ev = some (i, e))
    (he : e ≠ .acquired ∧ e ≠ .released) : Ordinary ev := by
  intro j f hf
  rw [h] at hf
  cases hf
  exact he

theorem LockInv.two {k : Bool} {l : List (Ev CallAns)} {e1 e2 : Ev CallAns} (h : LockInv k l)
    (h1 : Ordinary e1) (h2 : Ordinary e2) : LockInv k (l ++ [e1, e2]) := by
  have := (h.ordinary h1).ordinary h2
  simpa using this

/-- The invariant of the recording world. -/
def LockJ {W : Type} (x : Shared W × List (Ev CallAns)) : Prop := LockInv x.1.radio.locked x.2

section
variable {W : Type} (ω : Prog.World CallAns W)

theorem lift_start {e : Csma.Call} {r : Option (CallAns e) × W} {s : Shared W}
    {l : List (Ev CallAns)} (hst : (deviceWorld ω).start e s = s.lift r)
    (h : LockInv s.radio.locked l) (h1 : Ordinary (.start e)) (h2 : ∀ a, Ordinary (.ret e a)) :
    LockJ ((deviceWorld ω).record.start e (s, l)).2 := by
  obtain ⟨ra, w'⟩ := r
  simp only [Prog.World.record, hst, Shared.lift]
  cases ra with
  | none => exact h.ordinary h1
  | some a => exact h.two h1 (h2 a)

theorem lift_poll {e : Csma.Call} {r : Option (CallAns e) × W} {s : Shared W}
    {l : List (Ev CallAns)} (hst : (deviceWorld ω).poll e s = s.lift r)
    (h : LockInv s.radio.locked l) (h2 : ∀ a, Ordinary (.ret e a)) :
    LockJ ((deviceWorld ω).record.poll e (s, l)).2 := by
  obtain ⟨ra, w'⟩ := r
  simp only [Prog.World.record, hst, Shared.lift]
  cases ra with
  | none => exact h
  | some a => exact h.ordinary (h2 a)

theorem lockJ_start (e : Csma.Call) (x : Shared W × List (Ev CallAns)) (h : LockJ x) :
    LockJ ((deviceWorld ω).record.start e x).2 := by
  obtain ⟨s, l⟩ := x
  obtain ⟨i, op⟩ := e
  have h : LockInv s.radio.locked l := h
  cases op with
  | driverTransmit => exact lift_start ω rfl h (ordinary_none rfl) (fun _ => ordinary_none rfl)
  | driverReceived b => exact lift_start ω rfl h (ordinary_none rfl) (fun _ => ordinary_none rfl)
  | driverError e => exact lift_start ω rfl h (ordinary_none rfl) (fun _ => ordinary_none rfl)
  | rngNext => exact lift_start ω rfl h (ordinary_none rfl) (fun _ => ordinary_none rfl)
  | delay us => exact lift_start ω rfl h (ordinary_none rfl) (fun _ => ordinary_none rfl)
  | radioEnable => exact lift_start ω rfl h (ordinary_none rfl) (fun _ => ordinary_none rfl)
  | radioTransmit b c =>
    exact lift_start ω rfl h (ordinary_some rfl (by decide))
      (fun _ => ordinary_some rfl (by decide))
  | radioReceive c =>
    exact lift_start ω rfl h (ordinary_some rfl (by decide))
      (fun _ => ordinary_some rfl (by decide))
  | yieldNow => exact h.ordinary (ordinary_none rfl)
  | sendSignal =>
    simp only [Prog.World.record, deviceWorld, Shared.sendSignal, LockJ]
    rcases s.signal.sendAsyncPoll (fun _ _ => true) () () with ⟨_ | _, _, _⟩ | _ | _
    · exact h.ordinary (ordinary_none rfl)
    · exact h.two (ordinary_none rfl) (ordinary_none rfl)
    · exact h.ordinary (ordinary_none rfl)
    · exact h.ordinary (ordinary_none rfl)
  | recvSignal =>
    simp only [Prog.World.record, deviceWorld, Shared.recvSignal, LockJ]
    rcases s.signal.receivePoll () with ⟨_ | _, _, _⟩ | _ | _
    · exact h.ordinary (ordinary_none rfl)
    · exact h.two (ordinary_none rfl) (ordinary_none rfl)
    · exact h.ordinary (ordinary_none rfl)
    · exact h.ordinary (ordinary_none rfl)
  | rngLock =>
    simp only [Prog.World.record, deviceWorld, Shared.lockRng, LockJ]
    rcases s.rng.lockPoll (fun _ _ => true) () with ⟨_ | _, _, _⟩
    · exact h.ordinary (ordinary_none rfl)
    · exact h.two (ordinary_none rfl) (ordinary_none rfl)
  | rngUnlock => exact h.two (ordinary_none rfl) (ordinary_none rfl)
  | tryLock =>
    simp only [Prog.World.record, deviceWorld, Sync.Mutex.tryLock, LockJ]
    cases hk : s.radio.locked with
    | false =>
      rw [hk] at h
      have := (h.ordinary (ev := .start (i, .tryLock)) (ordinary_none rfl)).acquired
        (ev := .ret (i, .tryLock) true) (i := i) rfl
      simpa using this
    | true =>
      rw [hk] at h
      simpa [hk] using h.two (e1 := .start (i, .tryLock)) (e2 := .ret (i, .tryLock) false)
        (ordinary_none rfl) (ordinary_none rfl)
  | lock =>
    simp only [Prog.World.record, deviceWorld, Shared.lockRadio, Sync.Mutex.lockPoll, LockJ]
    cases hk : s.radio.locked with
    | false =>
      rw [hk] at h
      have := (h.ordinary (ev := .start (i, .lock)) (ordinary_none rfl)).acquired
        (ev := .ret (i, .lock) ()) (i := i) rfl
      simpa [Shared.wake] using this
    | true =>
      rw [hk] at h
      simpa [Shared.wake, hk] using h.ordinary (ev := .start (i, .lock)) (ordinary_none rfl)
  | unlock =>
    simp only [Prog.World.record, deviceWorld, Sync.Mutex.guardDrop, LockJ, Shared.wake]
    have := (h.released (ev := .start (i, .unlock)) (i := i) rfl).ordinary
      (ev := .ret (i, .unlock) ()) (ordinary_none rfl)
    simpa using this

theorem lockJ_poll (e : Csma.Call) (x : Shared W × List (Ev CallAns)) (h : LockJ x) :
    LockJ ((deviceWorld ω).record.poll e x).2 := by
  obtain ⟨s, l⟩ := x
  obtain ⟨i, op⟩ := e
  have h : LockInv s.radio.locked l := h
  cases op with
  | driverTransmit => exact lift_poll ω rfl h (fun _ => ordinary_none rfl)
  | driverReceived b => exact lift_poll ω rfl h (fun _ => ordinary_none rfl)
  | driverError e => exact lift_poll ω rfl h (fun _ => ordinary_none rfl)
  | rngNext => exact lift_poll ω rfl h (fun _ => ordinary_none rfl)
  | delay us => exact lift_poll ω rfl h (fun _ => ordinary_none rfl)
  | radioEnable => exact lift_poll ω rfl h (fun _ => ordinary_none rfl)
  | radioTransmit b c => exact lift_poll ω rfl h (fun _ => ordinary_some rfl (by decide))
  | radioReceive c => exact lift_poll ω rfl h (fun _ => ordinary_some rfl (by decide))
  | yieldNow => exact h.ordinary (ordinary_none rfl)
  | sendSignal =>
    simp only [Prog.World.record, deviceWorld, Shared.sendSignal, LockJ]
    rcases s.signal.sendAsyncPoll (fun _ _ => true) () () with ⟨_ | _, _, _⟩ | _ | _
    · exact h
    · exact h.ordinary (ordinary_none rfl)
    · exact h
    · exact h
  | recvSignal =>
    simp only [Prog.World.record, deviceWorld, Shared.recvSignal, LockJ]
    rcases s.signal.receivePoll () with ⟨_ | _, _, _⟩ | _ | _
    · exact h
    · exact h.ordinary (ordinary_none rfl)
    · exact h
    · exact h
  | rngLock =>
    simp only [Prog.World.record, deviceWorld, Shared.lockRng, LockJ]
    rcases s.rng.lockPoll (fun _ _ => true) () with ⟨_ | _, _, _⟩
    · exact h
    · exact h.ordinary (ordinary_none rfl)
  | rngUnlock => exact h
  | tryLock => exact h
  | unlock => exact h
  | lock =>
    simp only [Prog.World.record, deviceWorld, Shared.lockRadio, Sync.Mutex.lockPoll, LockJ]
    cases hk : s.radio.locked with
    | false =>
      rw [hk] at h
      have := h.acquired (ev := .ret (i, .lock) ()) (i := i) rfl
      simpa [Shared.wake] using this
    | true =>
      rw [hk] at h
      simpa [Shared.wake, hk] using h

end

/-- The rest of the world acts between two polls; the device's own mutexes and channel are out of
its reach. -/
def onBase {W : Type} (env : W → W) (s : Shared W) : Shared W := { s with base := env s.base }

/-- **C57**.  Whatever the surroundings `ω` do, at every poll and in between (`sched`), at every
moment of what a device did (`l'`): both tasks have kept to the protocol, at most one of them uses
the radio, and in the end the radio's mutex is locked iff one of them does. -/
theorem C57_exclusive (D : Device) {W : Type} (ω : Prog.World CallAns W) (fuel : Nat)
    (sched : List (W → W)) (w : W) :
    let r := (runDevice D).run (deviceWorld ω).record fuel
      ((sched.map onBase).map fun env x => (env x.1, x.2)) ({ base := w }, [])
    (∀ l', l' <+: r.2.2 → ∃ a b, usage .tx l' = some a ∧ usage .rx l' = some b ∧
      (a = .free ∨ b = .free)) ∧
    ∀ a b, usage .tx r.2.2 = some a → usage .rx r.2.2 = some b →
      (r.2.1.radio.locked = true ↔ a ≠ .free ∨ b ≠ .free) := by
  intro r
  obtain ⟨o, he, -⟩ := run_exec (deviceWorld ω) fuel (sched.map onBase) (runDevice D) { base := w }
  have h0 : LockJ (({ base := w }, []) : Shared W × List (Ev CallAns)) := by
    intro a b ha hb
    cases ha
    cases hb
    refine ⟨?_, by simp [Sync.Mutex.new]⟩
    intro l' hl'
    rw [List.prefix_nil] at hl'
    subst hl'
    exact ⟨.free, .free, rfl, rfl, Or.inl rfl⟩
  have hJ : LockJ r.2 := by
    refine run_inv (lockJ_start ω) (lockJ_poll ω) fuel _ ?_ (runDevice D) _ h0
    intro env henv x hx
    simp only [List.map_map, List.mem_map, Function.comp] at henv
    obtain ⟨f, -, rfl⟩ := henv
    exact hx
  obtain ⟨a, ha⟩ := Option.ne_none_iff_exists'.1 (C57_protocol D .tx he)
  obtain ⟨b, hb⟩ := Option.ne_none_iff_exists'.1 (C57_protocol D .rx he)
  refine ⟨(hJ a b ha hb).1, fun a b ha hb => (hJ a b ha hb).2⟩

set_option maxRecDepth 40000 in
/-- A history: the transmit task sends a package and hears its acknowledgement; then the receive
task gets the radio, receives a frame, acknowledges it and listens on; it keeps the radio. -/
example :
    let r := (runDevice exampleDevice).run (deviceWorld scripted).record 5
      (([id, id, id].map onBase).map fun env x => (env x.1, x.2))
      ({ base := ⟨some examplePackage, some askingFrame, some (padded [3, 2, 0x10, 9]), true⟩ }, [])
    r.2.2.filterMap radioEv = [(.tx, .acquired), (.tx, .transmits), (.tx, .transmitted),
      (.tx, .listens), (.tx, .heard), (.tx, .released), (.rx, .acquired), (.rx, .listens),
      (.rx, .heard), (.rx, .transmits), (.rx, .transmitted), (.rx, .listens)] ∧
    usage .tx r.2.2 = some .free ∧ usage .rx r.2.2 = some .receiving ∧
    r.2.1.radio.locked = true := by
  refine ⟨rfl, rfl, rfl, rfl⟩

end Dot15d4.Props
