import Verif.Lemmas.Drops
import Verif.Spec.DeviceRadio
import Verif.Props.CsmaDevice
import Verif.Props.CsmaCalls

/-!
# C77: what a device does to its radio
-/

namespace Dot15d4.Props
open Dot15d4 Out Spec Csma
open Dot15d4.Sync (Either OpState RadioOps pollRadio dropRadio Locals)

namespace DeviceRadio

/-! ## One `receive` or `transmit` -/

section
variable {P O W : Type}

/-- The methods used, recorded; `ans` is what the operation leads to. -/
def loggedOps (ops : RadioOps P O Unit W) (a : Job) (ans : Bool → W → Answer) : RadioOps P O Unit (W × List RawEv) where
  prepare := logged ops.prepare (.preparePending a) (fun _ _ => .prepared a) (.prepareDropped a)
  operate := logged ops.operate (.operatePending a.dir) (fun r w => .operated (ans r w))
    (.operateDropped a.dir)
  cancel w := (ops.cancel w.1, w.2 ++ [.cancelled])

/-- The locals of a suspended future. -/
def suspended : Locals := { borrowed := true, armed := true }

/-- A future in state `st` has done `es`. -/
inductive At (a : Job) : OpState P O → List RawEv → Prop where
  | preparing (i : Nat) (hi : 0 < i) (s : P) :
      At a (.preparing suspended s) (List.replicate i (.preparePending a))
  | operating (i j : Nat) (hj : 0 < j) (s : O) : At a (.operating suspended s)
      (List.replicate i (.preparePending a) ++ [.prepared a] ++ List.replicate j (.operatePending a.dir))

theorem At.goingOn {a : Job} {st : OpState P O} {es : List RawEv} (h : At a st es) :
    GoingOn a es := by
  cases h with
  | preparing i hi s => exact .preparing i hi
  | operating i j hj s => exact .operating i j hj

theorem operate_at (ops : RadioOps P O Unit W) (a : Job) {ans : Bool → W → Answer}
    (ha : ∀ r w, (ans r w).dir = a.dir) (i j : Nat) (s : O) (w : W)
    (l : List RawEv) :
    ∃ r st w' es, Sync.pollOperate (P := P) (loggedOps ops a ans) () suspended s
        (w, l ++ (List.replicate i (.preparePending a) ++ [.prepared a] ++
          List.replicate j (.operatePending a.dir))) = .ok (r, st, (w', l ++ es)) ∧
      match r with
      | .pending => At a st es
      | .ready _ => Operation a es := by
  rw [Sync.pollOperate]
  rcases h : ops.operate.poll () s w with ⟨_ | r, s1, w1⟩
  · refine ⟨.pending, .operating suspended s1, w1, _, ?_, At.operating i (j + 1) (by omega) s1⟩
    simp [loggedOps, logged, h, List.replicate_succ']
  · refine ⟨.ready r, .returned, w1, _, ?_, Operation.completed i j (ans r w1) (ha r w1)⟩
    simp [loggedOps, logged, h, Locals.dropAll, Locals.defuse, Locals.dropOnDrop, suspended]

theorem prepare_at (ops : RadioOps P O Unit W) (a : Job) {ans : Bool → W → Answer}
    (ha : ∀ r w, (ans r w).dir = a.dir) (i : Nat) (s : P) (w : W)
    (l : List RawEv) :
    ∃ r st w' es, Sync.pollPrepare (loggedOps ops a ans) () suspended s
        (w, l ++ List.replicate i (.preparePending a)) = .ok (r, st, (w', l ++ es)) ∧
      match r with
      | .pending => At a st es
      | .ready _ => Operation a es := by
  rw [Sync.pollPrepare]
  rcases h : ops.prepare.poll () s w with ⟨_ | r, s1, w1⟩
  · refine ⟨.pending, .preparing suspended s1, w1, _, ?_, At.preparing (i + 1) (by omega) s1⟩
    simp [loggedOps, logged, h, List.replicate_succ']
  · obtain ⟨r, st, w', es, h1, h2⟩ := operate_at ops a ha i 0 ops.operate.init w1 l
    refine ⟨r, st, w', es, ?_, h2⟩
    rw [← h1]
    simp [loggedOps, logged, h]

theorem poll_fresh (ops : RadioOps P O Unit W) (a : Job) {ans : Bool → W → Answer}
    (ha : ∀ r w, (ans r w).dir = a.dir) (w : W) (l : List RawEv) :
    ∃ r st w' es, pollRadio (loggedOps ops a ans) () .unresumed (w, l) = .ok (r, st, (w', l ++ es)) ∧
      match r with
      | .pending => At a st es
      | .ready _ => Operation a es := by
  obtain ⟨r, st, w', es, h1, h2⟩ := prepare_at ops a ha 0 ops.prepare.init w l
  refine ⟨r, st, w', es, ?_, h2⟩
  rw [← h1, List.replicate_zero, List.append_nil]
  rfl

theorem poll_at (ops : RadioOps P O Unit W) {a : Job} {ans : Bool → W → Answer}
    (ha : ∀ r w, (ans r w).dir = a.dir) {st : OpState P O} {es : List RawEv}
    (h : At a st es) (w : W) (l : List RawEv) :
    ∃ r st' w' es', pollRadio (loggedOps ops a ans) () st (w, l ++ es) =
        .ok (r, st', (w', l ++ es')) ∧
      match r with
      | .pending => At a st' es'
      | .ready _ => Operation a es' := by
  cases h with
  | preparing i hi s => exact prepare_at ops a ha i s w l
  | operating i j hj s => exact operate_at ops a ha i j s w l

theorem drop_at (ops : RadioOps P O Unit W) {a : Job} {ans : Bool → W → Answer}
    (ha : ∀ r w, (ans r w).dir = a.dir) {st : OpState P O} {es : List RawEv}
    (h : At a st es) (w : W) (l : List RawEv) :
    ∃ w' es', dropRadio (loggedOps ops a ans) st (w, l ++ es) = .ok (w', l ++ es') ∧
      Operation a es' := by
  cases h with
  | preparing i hi s =>
    refine ⟨ops.cancel (ops.prepare.drop s w), _, ?_, .notPrepared i hi⟩
    simp [dropRadio, Locals.dropAll, Locals.dropOnDrop, suspended, loggedOps, logged]
  | operating i j hj s =>
    refine ⟨ops.cancel (ops.operate.drop s w), _, ?_, .notOperated i j hj⟩
    simp [dropRadio, Locals.dropAll, Locals.dropOnDrop, suspended, loggedOps, logged]

end

/-! ## The protocol of a task -/

/-- How a task uses the radio. -/
inductive Using where
  | free
  | held
  | busy (a : Job)

/-- What a task does that has to do with the radio. -/
inductive UseEv where
  | acquired
  | released
  | starts (a : Job)
  | polls (a : Job)
  | ends (a : Job)
  | drops (a : Job)
  | enables

open Classical in
/-- What is allowed: in contrast to `RadioUse.next`, giving the radio back in the middle of an
operation is not, even of a reception. -/
noncomputable def Using.next : Using → UseEv → Option Using
  | .free, .acquired => some .held
  | .held, .released => some .free
  | .held, .starts d => some (.busy d)
  | .busy d, .polls d' => if d = d' then some (.busy d) else none
  | .busy d, .ends d' => if d = d' then some .held else none
  | .busy d, .drops d' => if d = d' then some .held else none
  | _, _ => none

/-- What an entry of a record is about. -/
def useEv : DEv CallAns → Option (Tid × UseEv)
  | .ret (i, .tryLock) (r : Bool) => if r then some (i, .acquired) else none
  | .ret (i, .lock) _ => some (i, .acquired)
  | .start (i, .unlock) => some (i, .released)
  | .start (i, .radioReceive cfg) => some (i, .starts (.receive cfg))
  | .poll (i, .radioReceive cfg) => some (i, .polls (.receive cfg))
  | .ret (i, .radioReceive cfg) _ => some (i, .ends (.receive cfg))
  | .drop (i, .radioReceive cfg) => some (i, .drops (.receive cfg))
  | .start (i, .radioTransmit b cfg) => some (i, .starts (.transmit b cfg))
  | .poll (i, .radioTransmit b cfg) => some (i, .polls (.transmit b cfg))
  | .ret (i, .radioTransmit b cfg) _ => some (i, .ends (.transmit b cfg))
  | .drop (i, .radioTransmit b cfg) => some (i, .drops (.transmit b cfg))
  | .start (i, .radioEnable) => some (i, .enables)
  | .poll (i, .radioEnable) => some (i, .enables)
  | .ret (i, .radioEnable) _ => some (i, .enables)
  | .drop (i, .radioEnable) => some (i, .enables)
  | _ => none

/-- The protocol of one task. -/
noncomputable def useStep (tid : Tid) (s : Using) (ev : DEv CallAns) : Option Using :=
  match useEv ev with
  | some (i, e) => if i = tid then s.next e else some s
  | none => some s

/-- No operation is going on. -/
def Using.Idle (s : Using) : Prop := ∀ d, s ≠ .busy d

/-- Calls the protocol does not see. -/
def NoRadio (e : Csma.Call) : Prop :=
  match e.2 with
  | .tryLock => False
  | .lock => False
  | .unlock => False
  | .radioTransmit _ _ => False
  | .radioReceive _ => False
  | .radioEnable => False
  | _ => True

theorem noRadio_hidden (tid : Tid) (e : Csma.Call) (h : NoRadio e) : HiddenCall (useStep tid) e := by
  obtain ⟨i, op⟩ := e
  cases op <;> first | exact h.elim | exact fun s => ⟨rfl, rfl, rfl, fun _ => rfl⟩

/-- The task an entry of a record belongs to. -/
def evTid : DEv CallAns → Tid
  | .start e => e.1
  | .poll e => e.1
  | .ret e _ => e.1
  | .drop e => e.1

theorem useEv_tid {ev : DEv CallAns} {i : Tid} {x : UseEv} (h : useEv ev = some (i, x)) :
    evTid ev = i := by
  cases ev with
  | start e => obtain ⟨j, op⟩ := e; cases op <;> simp [useEv] at h <;> exact h.1
  | poll e => obtain ⟨j, op⟩ := e; cases op <;> simp [useEv] at h <;> exact h.1
  | drop e => obtain ⟨j, op⟩ := e; cases op <;> simp [useEv] at h <;> exact h.1
  | ret e r =>
    obtain ⟨j, op⟩ := e
    cases op with
    | tryLock =>
      simp only [useEv] at h
      split at h
      · simp at h; exact h.1
      · cases h
    | _ => simp [useEv] at h; try exact h.1

theorem useStep_other (tid : Tid) (ev : DEv CallAns) (h : evTid ev ≠ tid) (s : Using) :
    useStep tid s ev = some s := by
  rw [useStep]
  cases hx : useEv ev with
  | none => rfl
  | some x =>
    obtain ⟨j, y⟩ := x
    have := useEv_tid hx
    rw [this] at h
    simp [h]

theorem other_hidden (tid : Tid) (e : Csma.Call) (h : e.1 ≠ tid) : HiddenCall (useStep tid) e :=
  fun s => ⟨useStep_other tid (.start e) h s, useStep_other tid (.poll e) h s,
    useStep_other tid (.drop e) h s,
    fun r => useStep_other tid (.ret e r) h s⟩

/-- A task keeps to the protocol. -/
abbrev Uses {α : Type} (tid : Tid) (s : Using) (p : Csma.Task α) (Q : α → Using → Prop)
    (D : Using → Prop) : Prop := HoldsD (useStep tid) p s Q D

theorem Uses.bind {α β : Type} {tid : Tid} {s : Using} {p : Csma.Task β} {k : β → Csma.Task α}
    {R : β → Using → Prop} {Q : α → Using → Prop} {D : Using → Prop} (hp : Uses tid s p R D)
    (hk : ∀ b s', R b s' → Uses tid s' (k b) Q D) : Uses tid s (p >>= k) Q D :=
  HoldsD.mono (p := p) hp hk fun _ h => h

theorem Uses.other {tid : Tid} {s : Using} {e : Csma.Call} {D : Using → Prop} (h : NoRadio e)
    (hD : D s) : Uses tid s (Prog.await e) (fun _ s' => s' = s) D :=
  Hidden.holds (p := Prog.await e) (noRadio_hidden tid e h) (fun _ => rfl) hD

theorem Uses.lift {α : Type} {tid : Tid} {s : Using} {x : Out α} {D : Using → Prop} :
    Uses tid s (Prog.lift x) (fun _ s' => s' = s) D := by
  cases x with
  | ok a => exact rfl
  | err => exact trivial
  | panic => exact trivial

theorem Uses.unlock {tid : Tid} {D : Using → Prop} (hD : D .free) :
    Uses tid .held (Prog.await ((tid, .unlock) : Csma.Call)) (fun _ s' => s' = .free) D :=
  ⟨.free, by simp [useStep, useEv, Using.next], rfl, ⟨.free, rfl, hD⟩, fun _ => ⟨.free, rfl, rfl⟩⟩

theorem Uses.transmit {tid : Tid} {b : Arr 128} {cfg : TxConfig} {D : Using → Prop} (hD : D .held) :
    Uses tid .held (Prog.await ((tid, .radioTransmit b cfg) : Csma.Call))
      (fun _ s' => s' = .held) D :=
  ⟨.busy (.transmit b cfg), by simp [useStep, useEv, Using.next], by simp [useStep, useEv, Using.next],
    ⟨.held, by simp [useStep, useEv, Using.next], hD⟩,
    fun _ => ⟨.held, by simp [useStep, useEv, Using.next], rfl⟩⟩

theorem Uses.receive {tid : Tid} {cfg : RxConfig} {D : Using → Prop} (hD : D .held) :
    Uses tid .held (Prog.await ((tid, .radioReceive cfg) : Csma.Call))
      (fun _ s' => s' = .held) D :=
  ⟨.busy (.receive cfg), by simp [useStep, useEv, Using.next], by simp [useStep, useEv, Using.next],
    ⟨.held, by simp [useStep, useEv, Using.next], hD⟩,
    fun _ => ⟨.held, by simp [useStep, useEv, Using.next], rfl⟩⟩

/-- The protocol's state when the task has a guard, or not. -/
def usingOf (held : Bool) : Using := if held then .held else .free

theorem idle_free : Using.Idle .free := by intro d; simp
theorem idle_held : Using.Idle .held := by intro d; simp
theorem idle_usingOf (b : Bool) : Using.Idle (usingOf b) := by
  cases b
  · exact idle_free
  · exact idle_held

theorem acquireLock_uses (held : Bool) :
    Uses .tx (usingOf held) (acquireLock held) (fun _ s' => s' = .held) Using.Idle := by
  cases held with
  | true => exact rfl
  | false =>
    refine ⟨fun _ s => s = .free, rfl, ?_⟩
    rintro _ s rfl
    refine Uses.bind (R := fun (r : Bool) s' => s' = usingOf r) ?_ ?_
    · refine ⟨.free, rfl, rfl, ⟨.free, rfl, idle_free⟩, fun (r : Bool) => ⟨usingOf r, ?_, rfl⟩⟩
      cases r <;> rfl
    · rintro r s' rfl
      cases r with
      | true => exact rfl
      | false =>
        refine Uses.bind (Uses.other trivial idle_free) ?_
        rintro _ s' rfl
        exact rfl

theorem performBackoff_noRadio (c : Consts) (bk : Backoff) : (performBackoff c bk).Only NoRadio := by
  cases bk with
  | none => trivial
  | exponential be =>
    exact ⟨lift_only _ _, fun _ => ⟨trivial, fun _ => ⟨trivial, fun _ => ⟨trivial, fun _ =>
      ⟨trivial, fun _ => trivial⟩⟩⟩⟩⟩

theorem Only.imp {α : Type} {S S' : Csma.Call → Prop} (h : ∀ e, S e → S' e) {p : Csma.Task α} :
    p.Only S → p.Only S' := by
  induction p with
  | pure => exact fun _ => trivial
  | call e k => exact h e
  | wait e k => exact h e
  | bind p k ihp ihk => exact fun hp => ⟨ihp hp.1, fun b => ihk b (hp.2 b)⟩
  | join p q k ihp ihq => exact fun hp => ⟨ihp hp.1, ihq hp.2⟩
  | select p q k ihp ihq => exact fun hp => ⟨ihp hp.1, ihq hp.2⟩
  | loop body s ih => exact fun hp s => ih s (hp s)
  | panic => exact fun _ => trivial

theorem hidden_noRadio {α : Type} {p : Csma.Task α} (tid : Tid) (h : p.Only NoRadio) :
    Hidden (useStep tid) p := Only.imp (noRadio_hidden tid) h

theorem transmitCca_uses (c : Consts) (ch : PhyChannel) (b : Arr 128) (held : Bool)
    (bk : Backoff) :
    Uses .tx (usingOf held) (transmitCca c ch b held bk)
      (fun r s' => s' = usingOf r.2 ∧ (r.1 = false → r.2 = false)) Using.Idle := by
  refine ⟨fun (x : CcaState) s => s = usingOf x.held, rfl, ?_⟩
  rintro x s rfl
  rw [ccaRound]
  split
  · refine Uses.bind (acquireLock_uses x.held) ?_
    rintro _ s' rfl
    refine Uses.bind (Uses.transmit idle_held) ?_
    rintro (r : Bool) s' rfl
    cases r with
    | true => exact ⟨rfl, fun h => h⟩
    | false =>
      refine Uses.bind (Uses.unlock idle_free) ?_
      rintro _ s' rfl
      show Uses _ _ (ite _ _ _) _ _
      split
      · exact ⟨rfl, fun h => h⟩
      · refine Uses.bind (R := fun _ s' => s' = .free) ?_ ?_
        · exact ⟨hidden_noRadio .tx (p := tx _) trivial,
            (hidden_noRadio .tx (performBackoff_noRadio c _)).holds
              (fun _ => ⟨idle_free, fun _ => rfl⟩) idle_free⟩
        · rintro _ s' rfl
          exact rfl
  · exact ⟨rfl, fun h => absurd h (by simp)⟩

theorem waitForValidAck_uses (F : RadioFormat) (ch : PhyChannel) (seq : Byte) :
    Uses .tx .held (waitForValidAck F ch seq) (fun _ s' => s' = .held) (fun s' => s' = .held) := by
  refine ⟨fun _ s => s = .held, rfl, ?_⟩
  rintro _ s rfl
  refine Uses.bind (Uses.receive rfl) ?_
  rintro (r : Bool × Arr 128) s' rfl
  obtain ⟨r, b⟩ := r
  cases r with
  | false => exact rfl
  | true =>
    refine Uses.bind Uses.lift ?_
    rintro v s' rfl
    cases v <;> exact rfl

theorem when_unlock_uses (tid : Tid) (held : Bool) :
    Uses tid (usingOf held) (Prog.when held (Prog.await ((tid, .unlock) : Csma.Call)))
      (fun _ s' => s' = .free) Using.Idle := by
  cases held with
  | true => exact Uses.unlock idle_free
  | false => exact rfl

theorem ackRound_uses (D : Device) (b : Arr 128) (seq : Option (Byte × Byte)) (i : Nat) :
    Uses .tx .free (ackRound D b seq i) (fun _ s' => s' = .free) Using.Idle := by
  rw [ackRound]
  split
  · refine Uses.bind (transmitCca_uses _ _ _ false _) ?_
    rintro ⟨r, held⟩ s' ⟨rfl, hr⟩
    cases r with
    | false =>
      cases hr rfl
      refine Uses.bind (Uses.other trivial idle_free) ?_
      rintro _ s' rfl
      exact rfl
    | true =>
      cases seq with
      | none =>
        refine Uses.bind (when_unlock_uses .tx held) ?_
        rintro _ s' rfl
        exact rfl
      | some sq =>
        refine Uses.bind (acquireLock_uses held) ?_
        rintro _ s' rfl
        refine Uses.bind (R := fun _ s' => s' = .held) ⟨hidden_noRadio .tx (p := tx _) trivial,
          (waitForValidAck_uses _ _ _).mono (fun _ _ h => h) ?_⟩ ?_
        · rintro s' rfl
          exact ⟨idle_held, fun _ => rfl⟩
        rintro a s' rfl
        refine Uses.bind (Uses.unlock idle_free) ?_
        rintro _ s' rfl
        cases a with
        | true => exact rfl
        | false =>
          refine Uses.bind (Uses.other trivial idle_free) ?_
          rintro _ s' rfl
          show Uses _ _ (ite _ _ _) _ _
          split
          · refine Uses.bind (Uses.other trivial idle_free) ?_
            rintro _ s' rfl
            exact rfl
          · refine Uses.bind (Uses.other trivial idle_free) ?_
            rintro _ s' rfl
            exact rfl
  · exact rfl

theorem reportTaskError_uses {α : Type} (r : Except TaskError α) (s : Using) (hs : s.Idle) :
    Uses .tx s (reportTaskError r) (fun _ s' => s' = s) Using.Idle := by
  cases r with
  | ok a => exact rfl
  | error e => cases e <;> exact Uses.other trivial hs

theorem transmitTask_uses (D : Device) :
    Uses .tx .free (transmitTask D) (fun _ _ => True) Using.Idle := by
  refine ⟨fun _ s => s = .free, rfl, ?_⟩
  rintro _ s rfl
  refine Uses.bind (R := fun _ s => s = .free) ?_ ?_
  · refine Uses.bind (Uses.other trivial idle_free) ?_
    rintro _ s rfl
    refine Uses.bind (Uses.other trivial idle_free) ?_
    rintro _ s rfl
    refine Uses.bind Uses.lift ?_
    rintro _ s rfl
    refine Uses.bind (reportTaskError_uses _ _ idle_free) ?_
    rintro _ s rfl
    refine Uses.bind Uses.lift ?_
    rintro _ s rfl
    refine Uses.bind (reportTaskError_uses _ _ idle_free) ?_
    rintro _ s rfl
    refine Uses.bind Uses.lift ?_
    rintro _ s rfl
    refine ⟨fun _ s => s = .free, rfl, ?_⟩
    rintro i s rfl
    exact (ackRound_uses D _ _ i).mono (fun r s h => by cases r <;> exact h) (fun _ h => h)
  · rintro _ s rfl
    exact rfl

theorem acknowledge_uses (D : Device) (a : Bool) (seq : Option Byte) (b : Arr 128) :
    Uses .rx .held (acknowledge D a seq b) (fun x s' => s' = usingOf x.held) Using.Idle := by
  cases a with
  | false =>
    refine Uses.bind (Uses.unlock idle_free) ?_
    rintro _ s rfl
    exact rfl
  | true =>
    cases seq with
    | none => exact rfl
    | some sq =>
      refine Uses.bind Uses.lift ?_
      rintro _ s rfl
      refine Uses.bind Uses.lift ?_
      rintro _ s rfl
      refine Uses.bind Uses.lift ?_
      rintro _ s rfl
      refine Uses.bind (Uses.other trivial idle_held) ?_
      rintro _ s rfl
      refine Uses.bind (Uses.transmit idle_held) ?_
      rintro _ s rfl
      exact rfl

theorem handleReceived_uses (D : Device) (x : RxState) (b : Arr 128) :
    Uses .rx .held (handleReceived D x b) (fun x s' => s' = usingOf x.held) Using.Idle := by
  refine Uses.bind Uses.lift ?_
  rintro v s rfl
  cases v with
  | none => exact rfl
  | some y =>
    refine ⟨hidden_noRadio .rx (p := rx _) trivial, (acknowledge_uses D _ _ _).mono ?_ fun _ h => h⟩
    rintro x s rfl
    exact ⟨idle_usingOf _, fun _ => rfl⟩

theorem giveUp_uses (x : RxState) :
    Uses .rx .held (giveUp x) (fun x s' => s' = usingOf x.held) Using.Idle := by
  refine Uses.bind (Uses.unlock idle_free) ?_
  rintro _ s rfl
  exact rfl

theorem lock_uses (held : Bool) :
    Uses .rx (usingOf held) (Prog.when (!held) (rx .lock)) (fun _ s' => s' = .held) Using.Idle := by
  cases held with
  | true => exact rfl
  | false =>
    exact ⟨.free, rfl, rfl, ⟨.free, rfl, idle_free⟩, fun _ => ⟨.held, rfl, rfl⟩⟩

theorem receiveTask_uses (D : Device) :
    Uses .rx .free (receiveTask D) (fun _ _ => True) Using.Idle := by
  refine ⟨fun x s => s = usingOf x.held, rfl, ?_⟩
  rintro x s rfl
  refine Uses.bind (R := fun (x : RxState) s => s = usingOf x.held) ?_ ?_
  · refine Uses.bind (Uses.other trivial (idle_usingOf _)) ?_
    rintro _ s rfl
    refine Uses.bind (lock_uses _) ?_
    rintro _ s rfl
    refine Uses.bind (R := fun _ s => s = .held) ⟨hidden_noRadio .rx (p := rx _) trivial,
      (Uses.receive (D := fun s => s = .held) rfl).mono (fun _ _ h => h) ?_⟩ ?_
    · rintro s' rfl
      exact ⟨idle_held, fun _ => rfl⟩
    rintro ⟨r, ob⟩ s rfl
    cases r with
    | false => exact giveUp_uses x
    | true =>
      cases ob with
      | none => exact giveUp_uses x
      | some b => exact handleReceived_uses D x b
  · rintro x s rfl
    exact rfl

/-! ## The radio's record and the tasks -/

section
variable {E PR OR PT OT W : Type}

/-- The state of the device and its radio, whose methods are recorded. -/
abbrev RadioState (E PR OR PT OT W : Type) := Shared (WithRadio E PR OR PT OT (W × List RawEv))

/-- The future `c` of a call for `a` has done `es`. -/
def Doing (a : Job) (es : List RawEv) : Option (Current PR OR PT OT) → Prop
  | some (.receive st) => a.dir = .receive ∧ At a st es
  | some (.transmit st) => a.dir = .transmit ∧ At a st es
  | none => False

theorem Doing.goingOn {a : Job} {es : List RawEv} {c : Option (Current PR OR PT OT)}
    (h : Doing a es c) : GoingOn a es := by
  match c, h with
  | some (.receive st), h => exact h.2.goingOn
  | some (.transmit st), h => exact h.2.goingOn

/-- What links the tasks' protocols, what they have asked for, the mutex, and the record of the
radio, which was `pre` when the tasks began. -/
def Inv (pre : List RawEv) (s : RadioState E PR OR PT OT W) (u : Tid → Using) (as : List Job) :
    Prop :=
  s.base.stuck = false ∧ ∃ done l, Operations done l ∧
    (((∀ i, u i = .free) ∧ s.radio.locked = false ∧ as = done ∧ s.base.base.2 = pre ++ l) ∨
      ∃ i, (∀ j, j ≠ i → u j = .free) ∧ s.radio.locked = true ∧
        ((u i = .held ∧ as = done ∧ s.base.base.2 = pre ++ l) ∨
          ∃ a es, u i = .busy a ∧ as = done ++ [a] ∧ s.base.base.2 = pre ++ l ++ es ∧
            Doing a es (s.base.current i)))

variable {pre : List RawEv} {s s' : RadioState E PR OR PT OT W} {u u' : Tid → Using} {i : Tid}
  {as : List Job}

theorem Inv.congr (h : Inv pre s u as) (h1 : s'.base.stuck = s.base.stuck)
    (h2 : s'.base.base.2 = s.base.base.2) (h3 : s'.base.current = s.base.current)
    (h4 : s'.radio.locked = s.radio.locked) : Inv pre s' u as := by
  rw [Inv, h1, h2, h3, h4]; exact h

theorem Inv.of_held (h : Inv pre s u as) (hi : u i = .held) :
    s.base.stuck = false ∧ s.radio.locked = true ∧ (∀ j, j ≠ i → u j = .free) ∧
      ∃ l, Operations as l ∧ s.base.base.2 = pre ++ l := by
  obtain ⟨hs, done, l, ho, h | ⟨k, hk, hl, h⟩⟩ := h
  · rw [h.1 i] at hi; cases hi
  · have : i = k := by
      by_contra hne
      rw [hk i hne] at hi
      cases hi
    subst this
    rcases h with ⟨-, rfl, h⟩ | ⟨d, es, h, -⟩
    · exact ⟨hs, hl, hk, l, ho, h⟩
    · rw [h] at hi; cases hi

theorem Inv.of_busy (h : Inv pre s u as) {a : Job} (hi : u i = .busy a) :
    s.base.stuck = false ∧ s.radio.locked = true ∧ (∀ j, j ≠ i → u j = .free) ∧
      ∃ done l es, Operations done l ∧ as = done ++ [a] ∧ s.base.base.2 = pre ++ l ++ es ∧
        Doing a es (s.base.current i) := by
  obtain ⟨hs, done, l, ho, h | ⟨k, hk, hl, h⟩⟩ := h
  · rw [h.1 i] at hi; cases hi
  · have : i = k := by
      by_contra hne
      rw [hk i hne] at hi
      cases hi
    subst this
    rcases h with h | ⟨a', es, h, h2⟩
    · rw [h.1] at hi; cases hi
    · rw [h] at hi; cases hi; exact ⟨hs, hl, hk, done, l, es, ho, h2⟩

/-- The calls and answers of a record. -/
def callEv : DEv CallAns → Option (Ev CallAns)
  | .start e => some (.start e)
  | .ret e r => some (.ret e r)
  | _ => none

/-- What was asked of the radio, according to a record. -/
def asks (l : List (DEv CallAns)) : List Job := jobs (l.filterMap callEv)

theorem asks_append (l l' : List (DEv CallAns)) : asks (l ++ l') = asks l ++ asks l' := by
  simp [asks, jobs]

theorem asks_cons (ev : DEv CallAns) (l : List (DEv CallAns)) :
    asks (ev :: l) = asks [ev] ++ asks l := asks_append [ev] l

/-- A step with the entries `evs` keeps the invariant. -/
def Keeps2 (pre : List RawEv) (s : RadioState E PR OR PT OT W) (evs : List (DEv CallAns))
    (s' : RadioState E PR OR PT OT W) : Prop :=
  ∀ (u u' : Tid → Using) (as : List Job), (∀ i, walk (useStep i) (u i) evs = some (u' i)) →
    Inv pre s u as → Inv pre s' u' (as ++ asks evs)

/-- An entry that does not ask anything of the radio. -/
theorem asks_one {ev : DEv CallAns} (h : ∀ i a, useEv ev ≠ some (i, .starts a)) :
    asks [ev] = [] := by
  cases ev with
  | start e =>
    obtain ⟨i, op⟩ := e
    cases op <;> first | rfl | exact absurd rfl (h _ _)
  | poll e => rfl
  | drop e => rfl
  | ret e r => rfl

theorem asks_none {evs : List (DEv CallAns)} (h : ∀ ev ∈ evs, useEv ev = none) :
    asks evs = [] := by
  induction evs with
  | nil => rfl
  | cons ev l ih =>
    rw [asks_cons, asks_one (fun i a => by rw [h ev (by simp)]; simp),
      ih fun x hx => h x (by simp [hx])]
    rfl

theorem walk_none {ev : DEv CallAns} (he : useEv ev = none) (j : Tid) (x : Using)
    (l : List (DEv CallAns)) : walk (useStep j) x (ev :: l) = walk (useStep j) x l := by
  simp [walk, useStep, he]

theorem walk_one {ev : DEv CallAns} {x : UseEv} (he : useEv ev = some (i, x))
    (h : ∀ j, walk (useStep j) (u j) [ev] = some (u' j)) :
    (u i).next x = some (u' i) ∧ ∀ j, j ≠ i → u' j = u j := by
  constructor
  · have := h i
    rw [walk_singleton] at this
    simpa [useStep, he] using this
  · intro j hj
    have := h j
    rw [walk_singleton] at this
    simp only [useStep, he] at this
    rw [if_neg (fun e => hj e.symm)] at this
    exact (Option.some.inj this).symm

theorem walk_two {ev ev' : DEv CallAns} {x x' : UseEv} (he : useEv ev = some (i, x))
    (he' : useEv ev' = some (i, x')) (h : ∀ j, walk (useStep j) (u j) [ev, ev'] = some (u' j)) :
    (∃ v, (u i).next x = some v ∧ v.next x' = some (u' i)) ∧ ∀ j, j ≠ i → u' j = u j := by
  constructor
  · have := h i
    rw [walk, Option.bind_eq_some_iff] at this
    obtain ⟨v, h1, h2⟩ := this
    rw [walk_singleton] at h2
    exact ⟨v, by simpa [useStep, he] using h1, by simpa [useStep, he'] using h2⟩
  · intro j hj
    have := h j
    rw [walk, Option.bind_eq_some_iff] at this
    obtain ⟨v, h1, h2⟩ := this
    rw [walk_singleton] at h2
    simp only [useStep, he, he'] at h1 h2
    rw [if_neg (fun e => hj e.symm)] at h1 h2
    rw [← Option.some.inj h2, Option.some.inj h1]

theorem keeps_none {evs : List (DEv CallAns)} (h : ∀ ev ∈ evs, useEv ev = none)
    (h1 : s'.base.stuck = s.base.stuck)
    (h2 : s'.base.base.2 = s.base.base.2) (h3 : s'.base.current = s.base.current)
    (h4 : s'.radio.locked = s.radio.locked) : Keeps2 pre s evs s' := by
  intro u u' as hu hi
  have : u' = u := by
    funext j
    have hj := hu j
    rw [walk_unseen (fun x hx s => by rw [useStep, h x hx])] at hj
    exact (Option.some.inj hj).symm
  rw [this, asks_none h, List.append_nil]
  exact hi.congr h1 h2 h3 h4

theorem next_acquired {a b : Using} (h : a.next .acquired = some b) : a = .free ∧ b = .held := by
  cases a <;> simp [Using.next] at h
  exact ⟨rfl, h.symm⟩

theorem next_released {a b : Using} (h : a.next .released = some b) : a = .held ∧ b = .free := by
  cases a <;> simp [Using.next] at h
  exact ⟨rfl, h.symm⟩

theorem next_starts {v b : Using} {a : Job} (h : v.next (.starts a) = some b) :
    v = .held ∧ b = .busy a := by
  cases v <;> simp [Using.next] at h
  exact ⟨rfl, h.symm⟩

theorem next_polls {v b : Using} {a : Job} (h : v.next (.polls a) = some b) :
    v = .busy a ∧ b = .busy a := by
  cases v <;> simp [Using.next] at h
  obtain ⟨rfl, rfl⟩ := h
  exact ⟨rfl, rfl⟩

theorem next_ends {v b : Using} {a : Job} (h : v.next (.ends a) = some b) :
    v = .busy a ∧ b = .held := by
  cases v <;> simp [Using.next] at h
  obtain ⟨rfl, rfl⟩ := h
  exact ⟨rfl, rfl⟩

theorem next_drops {v b : Using} {a : Job} (h : v.next (.drops a) = some b) :
    v = .busy a ∧ b = .held := by
  cases v <;> simp [Using.next] at h
  obtain ⟨rfl, rfl⟩ := h
  exact ⟨rfl, rfl⟩

theorem inv_acquired {ev : DEv CallAns} (he : useEv ev = some (i, .acquired))
    (hl : s.radio.locked = false) (h1 : s'.base = s.base) (h4 : s'.radio.locked = true) :
    Keeps2 pre s [ev] s' := by
  intro u u' as hu hi
  obtain ⟨hn, hj⟩ := walk_one he hu
  obtain ⟨hf, hh⟩ := next_acquired hn
  rw [asks_one (fun i a => by rw [he]; simp), List.append_nil]
  obtain ⟨hs, done, l, ho, h | ⟨k, hk, hl', h⟩⟩ := hi
  · refine ⟨by rw [h1]; exact hs, done, l, ho, .inr ⟨i, ?_, h4,
      .inl ⟨hh, h.2.2.1, by rw [h1]; exact h.2.2.2⟩⟩⟩
    intro j hji
    rw [hj j hji, h.1 j]
  · rw [hl] at hl'; cases hl'

theorem inv_released {ev : DEv CallAns} (he : useEv ev = some (i, .released))
    (h1 : s'.base = s.base) (h4 : s'.radio.locked = false) : Keeps2 pre s [ev] s' := by
  intro u u' as hu hi
  obtain ⟨hn, hj⟩ := walk_one he hu
  obtain ⟨hf, hh⟩ := next_released hn
  rw [asks_one (fun i a => by rw [he]; simp), List.append_nil]
  obtain ⟨hs, hl, hk, l, ho, h⟩ := hi.of_held hf
  refine ⟨by rw [h1]; exact hs, as, l, ho, .inl ⟨?_, h4, rfl, by rw [h1]; exact h⟩⟩
  intro j
  by_cases hji : j = i
  · rw [hji, hh]
  · rw [hj j hji, hk j hji]

/-- What a poll of the future of a `receive` or `transmit` does. -/
def Did (a : Job) (i : Tid) (before es : List RawEv) (ready : Bool)
    (s : WithRadio E PR OR PT OT (W × List RawEv)) : Prop :=
  s.base.2 = before ++ es ∧ match ready with
    | true => Operation a es
    | false => Doing a es (s.current i)

/-- What a reception leads to. -/
def rxAnswer (R : RawRadio E PR OR PT OT W) (ok : Bool) (w : W) : Answer :=
  .received ok (R.received w)

/-- What a transmission leads to. -/
def txAnswer (ok : Bool) (_ : W) : Answer := .transmitted ok

theorem rxAnswer_dir (R : RawRadio E PR OR PT OT W) (cfg : RxConfig) (r : Bool) (w : W) :
    (rxAnswer R r w).dir = (Job.receive cfg).dir := rfl

theorem txAnswer_dir (b : Arr 128) (cfg : TxConfig) (r : Bool) (w : W) :
    (txAnswer r w).dir = (Job.transmit b cfg).dir := rfl

theorem pollReceive_did (R : RawRadio E PR OR PT OT W)
    (s : WithRadio E PR OR PT OT (W × List RawEv)) (i : Tid) (cfg : RxConfig) (st : OpState PR OR)
    (before es : List RawEv) (hst : (st = .unresumed ∧ es = []) ∨ At (.receive cfg) st es)
    (hl : s.base.2 = before ++ es) :
    ∃ es', (s.pollReceive (recordRadio R) i cfg st).2.stuck = s.stuck ∧
      Did (.receive cfg) i before es' (s.pollReceive (recordRadio R) i cfg st).1.isSome
        (s.pollReceive (recordRadio R) i cfg st).2 := by
  obtain ⟨r, st', w', es', h1, h2⟩ : ∃ r st' w' es',
      pollRadio ((recordRadio R).rxOps cfg) () st s.base = .ok (r, st', (w', before ++ es')) ∧
      match r with
      | .pending => At (.receive cfg) st' es'
      | .ready _ => Operation (.receive cfg) es' := by
    rcases hb : s.base with ⟨w, l⟩
    rw [hb] at hl
    simp only at hl
    subst hl
    rcases hst with ⟨rfl, rfl⟩ | hst
    · rw [List.append_nil]
      exact poll_fresh (R.rxOps cfg) (.receive cfg) (rxAnswer_dir R cfg) w before
    · exact poll_at (R.rxOps cfg) (rxAnswer_dir R cfg) hst w before
  refine ⟨es', ?_⟩
  rw [WithRadio.pollReceive, h1]
  cases r with
  | pending => exact ⟨rfl, rfl, by simpa [WithRadio.set, Doing, Job.dir] using h2⟩
  | ready b => exact ⟨rfl, rfl, h2⟩

theorem pollTransmit_did (R : RawRadio E PR OR PT OT W)
    (s : WithRadio E PR OR PT OT (W × List RawEv)) (i : Tid) (b : Arr 128) (cfg : TxConfig)
    (st : OpState PT OT)
    (before es : List RawEv) (hst : (st = .unresumed ∧ es = []) ∨ At (.transmit b cfg) st es)
    (hl : s.base.2 = before ++ es) :
    ∃ es', (s.pollTransmit (recordRadio R) i b cfg st).2.stuck = s.stuck ∧
      Did (.transmit b cfg) i before es' (s.pollTransmit (recordRadio R) i b cfg st).1.isSome
        (s.pollTransmit (recordRadio R) i b cfg st).2 := by
  obtain ⟨r, st', w', es', h1, h2⟩ : ∃ r st' w' es',
      pollRadio ((recordRadio R).txOps b cfg) () st s.base = .ok (r, st', (w', before ++ es')) ∧
      match r with
      | .pending => At (.transmit b cfg) st' es'
      | .ready _ => Operation (.transmit b cfg) es' := by
    rcases hb : s.base with ⟨w, l⟩
    rw [hb] at hl
    simp only at hl
    subst hl
    rcases hst with ⟨rfl, rfl⟩ | hst
    · rw [List.append_nil]
      exact poll_fresh (R.txOps b cfg) (.transmit b cfg) (txAnswer_dir (W := W) b cfg) w before
    · exact poll_at (R.txOps b cfg) (txAnswer_dir b cfg) hst w before
  refine ⟨es', ?_⟩
  rw [WithRadio.pollTransmit, h1]
  cases r with
  | pending => exact ⟨rfl, rfl, by simpa [WithRadio.set, Doing, Job.dir] using h2⟩
  | ready r => exact ⟨rfl, rfl, h2⟩

/-- The invariant after a poll of such a future. -/
theorem inv_did {a : Job} {done : List Job} {l es : List RawEv} {ready : Bool}
    (hs : s'.base.stuck = false) (hl : s'.radio.locked = true) (ho : Operations done l)
    (hj : ∀ j, j ≠ i → u' j = .free) (hd : Did a i (pre ++ l) es ready s'.base)
    (hi : u' i = if ready then .held else .busy a) : Inv pre s' u' (done ++ [a]) := by
  obtain ⟨h1, h2⟩ := hd
  cases ready with
  | true =>
    exact ⟨hs, done ++ [a], l ++ es, ho.more h2, .inr ⟨i, hj, hl, .inl ⟨hi, rfl, by simp [h1]⟩⟩⟩
  | false => exact ⟨hs, done, l, ho, .inr ⟨i, hj, hl, .inr ⟨a, es, hi, rfl, h1, h2⟩⟩⟩

/-- The entry for a call that returned, or none. -/
def retEv (e : Csma.Call) : Option (CallAns e) → List (DEv CallAns)
  | some r => [.ret e r]
  | none => []

theorem asks_retEv (ev : DEv CallAns) (e : Csma.Call) (r : Option (CallAns e)) :
    asks (ev :: retEv e r) = asks [ev] := by
  rw [asks_cons]
  cases r <;> simp [retEv, asks, jobs, callEv, job]

theorem keeps_start {a : Job} {e : Csma.Call} (he : useEv (.start e) = some (i, .starts a))
    (hr : ∀ r, useEv (.ret e r) = some (i, .ends a)) (ha : asks [.start e] = [a])
    (x : Option (CallAns e) × WithRadio E PR OR PT OT (W × List RawEv))
    (hx : ∃ es', x.2.stuck = s.base.stuck ∧ Did a i s.base.base.2 es' x.1.isSome x.2) :
    Keeps2 pre s (.start e :: retEv e x.1) (s.lift x).2 := by
  intro u u' as hu hi
  rw [asks_retEv, ha]
  obtain ⟨es, hs, hd⟩ := hx
  rcases x with ⟨_ | r, x⟩
  · obtain ⟨hn, hj⟩ := walk_one he hu
    obtain ⟨hf, hh⟩ := next_starts hn
    obtain ⟨h1, h2, h3, l, ho, h4⟩ := hi.of_held hf
    rw [h4] at hd
    exact inv_did (s' := (s.lift (none, x)).2) (hs.trans h1) h2 ho
      (fun j hji => (hj j hji).trans (h3 j hji)) hd hh
  · obtain ⟨⟨v, hn, hn'⟩, hj⟩ := walk_two he (hr r) hu
    obtain ⟨hf, rfl⟩ := next_starts hn
    obtain ⟨h1, h2, h3, l, ho, h4⟩ := hi.of_held hf
    rw [h4] at hd
    exact inv_did (s' := (s.lift (some r, x)).2) (hs.trans h1) h2 ho
      (fun j hji => (hj j hji).trans (h3 j hji)) hd (next_ends hn').2

theorem keeps_poll {a : Job} {e : Csma.Call} (he : useEv (.poll e) = some (i, .polls a))
    (hr : ∀ r, useEv (.ret e r) = some (i, .ends a))
    (x : Option (CallAns e) × WithRadio E PR OR PT OT (W × List RawEv))
    (hx : ∀ before es, s.base.base.2 = before ++ es → Doing a es (s.base.current i) →
      ∃ es', x.2.stuck = s.base.stuck ∧ Did a i before es' x.1.isSome x.2) :
    Keeps2 pre s (.poll e :: retEv e x.1) (s.lift x).2 := by
  intro u u' as hu hi
  have ha : asks (.poll e :: retEv e x.1) = [] := asks_retEv _ _ _
  rw [ha, List.append_nil]
  rcases x with ⟨_ | r, x⟩
  · obtain ⟨hn, hj⟩ := walk_one he hu
    obtain ⟨hf, hh⟩ := next_polls hn
    obtain ⟨h1, h2, h3, done, l, es, ho, rfl, h4, h5⟩ := hi.of_busy hf
    obtain ⟨es', hs, hd⟩ := hx _ _ h4 h5
    exact inv_did (s' := (s.lift (none, x)).2) (hs.trans h1) h2 ho
      (fun j hji => (hj j hji).trans (h3 j hji)) hd hh
  · obtain ⟨⟨v, hn, hn'⟩, hj⟩ := walk_two he (hr r) hu
    obtain ⟨hf, rfl⟩ := next_polls hn
    obtain ⟨h1, h2, h3, done, l, es, ho, rfl, h4, h5⟩ := hi.of_busy hf
    obtain ⟨es', hs, hd⟩ := hx _ _ h4 h5
    exact inv_did (s' := (s.lift (some r, x)).2) (hs.trans h1) h2 ho
      (fun j hji => (hj j hji).trans (h3 j hji)) hd (next_ends hn').2

theorem keeps_drop {a : Job} {e : Csma.Call} (he : useEv (.drop e) = some (i, .drops a))
    (x : WithRadio E PR OR PT OT (W × List RawEv))
    (hx : ∀ before es, s.base.base.2 = before ++ es → Doing a es (s.base.current i) →
      ∃ es', x.stuck = s.base.stuck ∧ Did a i before es' true x) :
    Keeps2 pre s [.drop e] { s with base := x } := by
  intro u u' as hu hi
  have ha : asks [.drop e] = [] := rfl
  rw [ha, List.append_nil]
  obtain ⟨hn, hj⟩ := walk_one he hu
  obtain ⟨hf, hh⟩ := next_drops hn
  obtain ⟨h1, h2, h3, done, l, es, ho, rfl, h4, h5⟩ := hi.of_busy hf
  obtain ⟨es', hs, hd⟩ := hx _ _ h4 h5
  exact inv_did (s' := { s with base := x }) (hs.trans h1) h2 ho
    (fun j hji => (hj j hji).trans (h3 j hji)) hd hh

theorem keeps_enable {ev : DEv CallAns} {l : List (DEv CallAns)}
    (he : useEv ev = some (i, .enables)) : Keeps2 pre s (ev :: l) s' := by
  intro u u' as hu
  have := hu i
  rw [walk] at this
  have hn : useStep i (u i) ev = none := by
    simp only [useStep, he, if_true]
    cases u i <;> rfl
  rw [hn] at this
  cases this

/-- An entry that says nothing. -/
theorem Keeps2.skip {ev : DEv CallAns} {evs : List (DEv CallAns)} (hev : useEv ev = none)
    (h : Keeps2 pre s evs s') : Keeps2 pre s (ev :: evs) s' := by
  intro u u' as hu hi
  rw [asks_cons, asks_one (fun i a => by rw [hev]; simp), List.nil_append]
  exact h u u' as (fun j => by rw [← hu j, walk_none hev]) hi

/-- A poll of the mutex's `lock`. -/
theorem keeps_lock {ev : DEv CallAns} (hev : useEv ev = none) (i : Tid) :
    Keeps2 pre s (ev :: retEv (i, .lock) s.lockRadio.1) s.lockRadio.2 := by
  refine Keeps2.skip hev ?_
  cases hl : s.radio.locked with
  | true =>
    have : s.lockRadio.1 = none := by simp [Shared.lockRadio, Sync.Mutex.lockPoll, hl]
    rw [this]
    refine keeps_none (by simp [retEv]) ?_ ?_ ?_ ?_ <;>
      simp [Shared.lockRadio, Sync.Mutex.lockPoll, hl, Shared.wake]
  | false =>
    have : s.lockRadio.1 = some () := by simp [Shared.lockRadio, Sync.Mutex.lockPoll, hl]
    rw [this]
    exact inv_acquired (i := i) (ev := .ret (i, .lock) ()) rfl hl
      (by simp [Shared.lockRadio, Sync.Mutex.lockPoll, hl, Shared.wake])
      (by simp [Shared.lockRadio, Sync.Mutex.lockPoll, hl, Shared.wake])

theorem keeps_tryLock (i : Tid) :
    Keeps2 pre s [.start (i, .tryLock), .ret (i, .tryLock) s.radio.tryLock.1]
      { s with radio := s.radio.tryLock.2 } := by
  refine Keeps2.skip (ev := .start (i, .tryLock)) rfl ?_
  cases hl : s.radio.locked with
  | true =>
    have : s.radio.tryLock = (false, s.radio) := by simp [Sync.Mutex.tryLock, hl]
    rw [this]
    exact keeps_none (by intro ev h; rw [List.mem_singleton.1 h]; rfl) rfl rfl rfl rfl
  | false =>
    have : s.radio.tryLock = (true, { s.radio with locked := true }) := by
      simp [Sync.Mutex.tryLock, hl]
    rw [this]
    exact inv_acquired (i := i) (ev := .ret (i, .tryLock) true) rfl hl rfl rfl

theorem keeps_unlock (i : Tid) :
    Keeps2 pre s [.start (i, .unlock), .ret (i, .unlock) ()]
      ({ s with radio := s.radio.guardDrop.2 }.wake s.radio.guardDrop.1) := by
  intro u u' as hu
  replace hu : ∀ j, walk (useStep j) (u j) [.start (i, .unlock)] = some (u' j) := by
    intro j
    have := hu j
    rw [walk, Option.bind_eq_some_iff] at this
    obtain ⟨v, h1, h2⟩ := this
    rw [walk_none rfl] at h2
    rw [walk_singleton, h1]
    exact h2
  exact inv_released (s := s)
    (s' := { s with radio := s.radio.guardDrop.2 }.wake s.radio.guardDrop.1)
    (i := i) (ev := .start (i, .unlock)) rfl rfl rfl u u' as hu

variable (R : RawRadio E PR OR PT OT W) (ω : Prog.DropWorld CallAns W)

/-- The surroundings of a device with the radio `R`, whose methods are recorded. -/
abbrev radioSurroundings : Prog.DropWorld CallAns (RadioState E PR OR PT OT W) :=
  deviceDropWorld (radioWorld (recordRadio R) (beside ω))

theorem keeps_other {evs : List (DEv CallAns)} (h : ∀ ev ∈ evs, useEv ev = none)
    (hb : s'.base = s.base) (hl : s'.radio = s.radio) : Keeps2 pre s evs s' :=
  keeps_none h (by rw [hb]) (by rw [hb]) (by rw [hb]) (by rw [hl])

theorem lockRng_same (s : RadioState E PR OR PT OT W) :
    s.lockRng.2.base = s.base ∧ s.lockRng.2.radio = s.radio := by
  rw [Shared.lockRng, Sync.Mutex.lockPoll]
  cases s.rng.locked <;> exact ⟨rfl, rfl⟩

theorem sendSignal_same (s : RadioState E PR OR PT OT W) :
    s.sendSignal.2.base = s.base ∧ s.sendSignal.2.radio = s.radio := by
  rw [Shared.sendSignal]
  split <;> exact ⟨rfl, rfl⟩

theorem recvSignal_same (s : RadioState E PR OR PT OT W) :
    s.recvSignal.2.base = s.base ∧ s.recvSignal.2.radio = s.radio := by
  rw [Shared.recvSignal]
  split <;> exact ⟨rfl, rfl⟩

theorem retEv_none {e : Csma.Call} (h : ∀ r, useEv (.ret e r) = none) {ev : DEv CallAns}
    (hev : useEv ev = none) (r : Option (CallAns e)) : ∀ x ∈ ev :: retEv e r, useEv x = none := by
  intro x hx
  rcases List.mem_cons.1 hx with rfl | hx
  · exact hev
  · cases r with
    | none => simp [retEv] at hx
    | some r => rw [List.mem_singleton.1 hx]; exact h r

theorem start_keeps (e : Csma.Call) (s : RadioState E PR OR PT OT W) :
    Keeps2 pre s (.start e :: retEv e ((radioSurroundings R ω).start e s).1)
      ((radioSurroundings R ω).start e s).2 := by
  obtain ⟨i, op⟩ := e
  cases op with
  | radioReceive cfg =>
    exact keeps_start (s := s) (i := i) (a := .receive cfg) (e := (i, .radioReceive cfg)) rfl
      (fun _ => rfl) rfl
      (s.base.pollReceive (recordRadio R) i cfg .unresumed)
      (pollReceive_did R s.base i cfg .unresumed _ [] (.inl ⟨rfl, rfl⟩)
        (List.append_nil _).symm)
  | radioTransmit b cfg =>
    exact keeps_start (s := s) (i := i) (a := .transmit b cfg) (e := (i, .radioTransmit b cfg)) rfl
      (fun _ => rfl) rfl
      (s.base.pollTransmit (recordRadio R) i b cfg .unresumed)
      (pollTransmit_did R s.base i b cfg .unresumed _ [] (.inl ⟨rfl, rfl⟩)
        (List.append_nil _).symm)
  | radioEnable => exact keeps_enable (i := i) rfl
  | lock => exact keeps_lock rfl i
  | tryLock => exact keeps_tryLock i
  | unlock => exact keeps_unlock i
  | rngLock =>
    exact keeps_other (retEv_none (fun _ => rfl) rfl _) (lockRng_same s).1 (lockRng_same s).2
  | sendSignal =>
    exact keeps_other (retEv_none (fun _ => rfl) rfl _) (sendSignal_same s).1 (sendSignal_same s).2
  | recvSignal =>
    exact keeps_other (retEv_none (fun _ => rfl) rfl _) (recvSignal_same s).1 (recvSignal_same s).2
  | rngUnlock => exact keeps_other (retEv_none (fun _ => rfl) rfl _) rfl rfl
  | yieldNow => exact keeps_other (retEv_none (fun _ => rfl) rfl _) rfl rfl
  | _ => exact keeps_none (retEv_none (fun _ => rfl) rfl _) rfl rfl rfl rfl

theorem poll_keeps (e : Csma.Call) (s : RadioState E PR OR PT OT W) :
    Keeps2 pre s (.poll e :: retEv e ((radioSurroundings R ω).poll e s).1)
      ((radioSurroundings R ω).poll e s).2 := by
  obtain ⟨i, op⟩ := e
  cases op with
  | radioReceive cfg =>
    refine keeps_poll (i := i) (a := .receive cfg) rfl (fun _ => rfl)
      ((radioWorld (recordRadio R) (beside ω)).poll (i, .radioReceive cfg) s.base) ?_
    intro before es h1 h2
    simp only [radioWorld]
    match s.base.current i, h2 with
    | some (.receive st), h2 => exact pollReceive_did R s.base i cfg st before es (.inr h2.2) h1
    | some (.transmit st), h2 => cases h2.1
  | radioTransmit b cfg =>
    refine keeps_poll (i := i) (a := .transmit b cfg) rfl (fun _ => rfl)
      ((radioWorld (recordRadio R) (beside ω)).poll (i, .radioTransmit b cfg) s.base) ?_
    intro before es h1 h2
    simp only [radioWorld]
    match s.base.current i, h2 with
    | some (.transmit st), h2 => exact pollTransmit_did R s.base i b cfg st before es (.inr h2.2) h1
    | some (.receive st), h2 => cases h2.1
  | radioEnable => exact keeps_enable (i := i) rfl
  | lock => exact keeps_lock rfl i
  | tryLock => exact keeps_other (by intro x hx; rw [List.mem_singleton.1 hx]; rfl) rfl rfl
  | unlock => exact keeps_other (by intro x hx; rw [List.mem_singleton.1 hx]; rfl) rfl rfl
  | rngLock =>
    exact keeps_other (retEv_none (fun _ => rfl) rfl _) (lockRng_same s).1 (lockRng_same s).2
  | sendSignal =>
    exact keeps_other (retEv_none (fun _ => rfl) rfl _) (sendSignal_same s).1 (sendSignal_same s).2
  | recvSignal =>
    exact keeps_other (retEv_none (fun _ => rfl) rfl _) (recvSignal_same s).1 (recvSignal_same s).2
  | rngUnlock => exact keeps_other (retEv_none (fun _ => rfl) rfl _) rfl rfl
  | yieldNow => exact keeps_other (retEv_none (fun _ => rfl) rfl _) rfl rfl
  | _ => exact keeps_none (retEv_none (fun _ => rfl) rfl _) rfl rfl rfl rfl

theorem drop_keeps (e : Csma.Call) (s : RadioState E PR OR PT OT W) :
    Keeps2 pre s [.drop e] ((radioSurroundings R ω).drop e s) := by
  obtain ⟨i, op⟩ := e
  cases op with
  | radioReceive cfg =>
    refine keeps_drop (i := i) (a := .receive cfg) rfl
      ((radioWorld (recordRadio R) (beside ω)).drop (i, .radioReceive cfg) s.base) ?_
    intro before es h1 h2
    simp only [radioWorld]
    match s.base.current i, h2 with
    | some (.receive st), h2 =>
      rcases hb : s.base.base with ⟨w, l⟩
      rw [hb] at h1
      simp only at h1
      subst h1
      obtain ⟨w', es', h3, h4⟩ := drop_at (R.rxOps cfg) (rxAnswer_dir R cfg) h2.2 w before
      refine ⟨es', ?_⟩
      have h3 : dropRadio ((recordRadio R).rxOps cfg) st (w, before ++ es) =
        .ok (w', before ++ es') := h3
      simp only [h3, WithRadio.dropCurrent]
      exact ⟨rfl, rfl, h4⟩
    | some (.transmit st), h2 => cases h2.1
  | radioTransmit b cfg =>
    refine keeps_drop (i := i) (a := .transmit b cfg) rfl
      ((radioWorld (recordRadio R) (beside ω)).drop (i, .radioTransmit b cfg) s.base) ?_
    intro before es h1 h2
    simp only [radioWorld]
    match s.base.current i, h2 with
    | some (.transmit st), h2 =>
      rcases hb : s.base.base with ⟨w, l⟩
      rw [hb] at h1
      simp only at h1
      subst h1
      obtain ⟨w', es', h3, h4⟩ := drop_at (R.txOps b cfg) (txAnswer_dir b cfg) h2.2 w before
      refine ⟨es', ?_⟩
      have h3 : dropRadio ((recordRadio R).txOps b cfg) st (w, before ++ es) =
        .ok (w', before ++ es') := h3
      simp only [h3, WithRadio.dropCurrent]
      exact ⟨rfl, rfl, h4⟩
    | some (.receive st), h2 => cases h2.1
  | radioEnable => exact keeps_enable (i := i) rfl
  | _ =>
    exact keeps_none (by intro x hx; rw [List.mem_singleton.1 hx]; rfl) rfl rfl rfl rfl

/-! ## Both tasks -/

/-- The invariant, if the tasks, which were in the states `u0`, have kept to the protocol. -/
def InvIf (pre : List RawEv) (u0 : Tid → Using) (as : List Job)
    (x : RadioState E PR OR PT OT W × List (DEv CallAns)) : Prop :=
  ∀ u : Tid → Using, (∀ i, walk (useStep i) (u0 i) x.2 = some (u i)) → Inv pre x.1 u (as ++ asks x.2)

theorem InvIf.step {u0 : Tid → Using} {l evs : List (DEv CallAns)} (h : InvIf pre u0 as (s, l))
    (hk : Keeps2 pre s evs s') : InvIf pre u0 as (s', l ++ evs) := by
  intro u' hu'
  have hs : ∀ i, ∃ v, walk (useStep i) (u0 i) l = some v ∧
      walk (useStep i) v evs = some (u' i) := by
    intro i
    have := hu' i
    rw [walk_append, Option.bind_eq_some_iff] at this
    exact this
  choose u h1 h2 using hs
  rw [asks_append, ← List.append_assoc]
  exact hk u u' _ h2 (h u h1)

theorem invIf_start (u0 : Tid → Using) (e : Csma.Call)
    (x : RadioState E PR OR PT OT W × List (DEv CallAns)) (h : InvIf pre u0 as x) :
    InvIf pre u0 as ((radioSurroundings R ω).record.start e x).2 := by
  obtain ⟨s, l⟩ := x
  have hk := start_keeps (pre := pre) R ω e s
  simp only [Prog.DropWorld.record]
  rcases hs : (radioSurroundings R ω).start e s with ⟨_ | r, s'⟩
  · rw [hs] at hk; exact h.step hk
  · rw [hs] at hk; exact h.step hk

theorem invIf_poll (u0 : Tid → Using) (e : Csma.Call)
    (x : RadioState E PR OR PT OT W × List (DEv CallAns)) (h : InvIf pre u0 as x) :
    InvIf pre u0 as ((radioSurroundings R ω).record.poll e x).2 := by
  obtain ⟨s, l⟩ := x
  have hk := poll_keeps (pre := pre) R ω e s
  simp only [Prog.DropWorld.record]
  rcases hs : (radioSurroundings R ω).poll e s with ⟨_ | r, s'⟩
  · rw [hs] at hk; exact h.step hk
  · rw [hs] at hk; exact h.step hk

theorem invIf_drop (u0 : Tid → Using) (e : Csma.Call)
    (x : RadioState E PR OR PT OT W × List (DEv CallAns)) (h : InvIf pre u0 as x) :
    InvIf pre u0 as ((radioSurroundings R ω).record.drop e x) :=
  InvIf.step (s := x.1) (l := x.2) h (drop_keeps R ω e x.1)

theorem only_any {α : Type} (p : Csma.Task α) : p.Only fun _ => True := by
  induction p with
  | pure => trivial
  | call e k => trivial
  | wait e k => trivial
  | bind p k ihp ihk => exact ⟨ihp, ihk⟩
  | join p q k ihp ihq => exact ⟨ihp, ihq⟩
  | select p q k ihp ihq => exact ⟨ihp, ihq⟩
  | loop body s ih => exact ih
  | panic => trivial

theorem invIf_pollD {α : Type} (p : Csma.Task α) (u0 : Tid → Using) (fuel : Nat)
    (x : RadioState E PR OR PT OT W × List (DEv CallAns)) (h : InvIf pre u0 as x) :
    InvIf pre u0 as (p.pollD (radioSurroundings R ω).record fuel x).2 :=
  pollD_inv (S := fun _ => True) (fun e x _ h => invIf_start R ω u0 e x h)
    (fun e x _ h => invIf_poll R ω u0 e x h) (fun e x _ h => invIf_drop R ω u0 e x h) fuel p
    (only_any p) x h

theorem invIf_dropCalls (l : List Csma.Call) (u0 : Tid → Using)
    (x : RadioState E PR OR PT OT W × List (DEv CallAns)) (h : InvIf pre u0 as x) :
    InvIf pre u0 as (Prog.dropCalls (radioSurroundings R ω).record l x) :=
  dropCalls_inv (S := fun _ => True) (fun e x _ h => invIf_drop R ω u0 e x h) l
    (fun _ _ => trivial) x h

/-- The device, after the radio was enabled: what is left of the two tasks. -/
def bothTasks {A B : Type} (T : Csma.Task A) (Q : Csma.Task B) : Csma.Task Empty :=
  .bind (.select T Q fun _ => ()) fun _ => .panic

/-- What is left of a task keeps to the protocol, also when it is dropped. -/
def Left {A : Type} (tid : Tid) (v : Using) (T : Csma.Task A) : Prop :=
  T.Only (fun e => e.1 = tid) ∧ Uses tid v T (fun _ _ => True) Using.Idle ∧
    ∃ v', walk (useStep tid) v (T.waits.map .drop) = some v' ∧ v'.Idle

/-- Both tasks are running, and have asked for `as`. -/
def Running (pre : List RawEv) (as : List Job) (s : RadioState E PR OR PT OT W)
    (p : Csma.Task Empty) : Prop :=
  ∃ (A B : Type) (T : Csma.Task A) (Q : Csma.Task B) (u : Tid → Using), p = bothTasks T Q ∧
    Left .tx (u .tx) T ∧ Left .rx (u .rx) Q ∧ Inv pre s u as

theorem Left.hidden {A : Type} {tid tid' : Tid} {v : Using} {T : Csma.Task A}
    (h : Left tid v T) (hne : tid ≠ tid') : Hidden (useStep tid') T :=
  Only.imp (fun e (he : e.1 = tid) => other_hidden tid' e (by rw [he]; exact hne)) h.1

/-- The states of both tasks. -/
def both (a b : Using) : Tid → Using
  | .tx => a
  | .rx => b

theorem InvIf.both {u0 : Tid → Using} {x : RadioState E PR OR PT OT W × List (DEv CallAns)}
    (h : InvIf pre u0 as x) {a b : Using} (ha : walk (useStep .tx) (u0 .tx) x.2 = some a)
    (hb : walk (useStep .rx) (u0 .rx) x.2 = some b) : Inv pre x.1 (both a b) (as ++ asks x.2) :=
  h (DeviceRadio.both a b) fun i => by cases i <;> assumption

/-- The record of calls, made from the record of everything; before that it was `calls`. -/
theorem calls_map {V : Type} (ω : Prog.DropWorld CallAns V) (calls : List (Ev CallAns)) :
    DropMap ω.record ω.recordCalls fun x => (x.1, calls ++ x.2.filterMap callEv) where
  start e w := by
    simp only [Prog.DropWorld.record, Prog.DropWorld.recordCalls, Prog.World.record]
    rcases ω.start e w.1 with ⟨_ | r, w1⟩ <;> simp [callEv]
  poll e w := by
    simp only [Prog.DropWorld.record, Prog.DropWorld.recordCalls, Prog.World.record]
    rcases ω.poll e w.1 with ⟨_ | r, w1⟩
    · simp [callEv]
    · simp [callEv, List.filterMap_cons]
  drop e w := by
    simp [Prog.DropWorld.record, Prog.DropWorld.recordCalls, callEv]

theorem Running.pollD {p : Csma.Task Empty} {calls : List (Ev CallAns)}
    (h : Running pre (jobs calls) s p) (fuel : Nat) :
    let r := p.pollD (radioSurroundings R ω).recordCalls fuel (s, calls)
    (∃ u, Inv pre r.2.1 u (jobs r.2.2)) ∧
      ∀ p', r.1 = .pending p' → Running pre (jobs r.2.2) r.2.1 p' := by
  intro r
  obtain ⟨A, B, T, Q, u, rfl, hT, hQ, hi⟩ := h
  have h0 : InvIf pre u (jobs calls) (s, []) := by
    intro u' hu'
    have : u' = u := funext fun i => (Option.some.inj (hu' i)).symm
    rw [this]; simpa [asks, jobs] using hi
  have hm := (calls_map (radioSurroundings R ω) calls).pollD fuel (bothTasks T Q) (s, [])
  have hr : r = (((bothTasks T Q).pollD (radioSurroundings R ω).record fuel (s, [])).1,
      ((bothTasks T Q).pollD (radioSurroundings R ω).record fuel (s, [])).2.1, calls ++
      ((bothTasks T Q).pollD (radioSurroundings R ω).record fuel (s, [])).2.2.filterMap callEv) := by
    rw [← hm]; simp [r]
  have hinv := invIf_pollD R ω (bothTasks T Q) u fuel (s, []) h0
  have hj : jobs r.2.2 = jobs calls ++ asks
      ((bothTasks T Q).pollD (radioSurroundings R ω).record fuel (s, [])).2.2 := by
    rw [hr]; simp [jobs, asks]
  rw [hj, hr]
  simp only
  clear hm hr hj r
  revert hinv
  rw [bothTasks, Prog.pollD, Prog.pollD]
  have h1 := hT.2.1.poll (radioSurroundings R ω) fuel (s0 := u .tx) (x := (s, [])) rfl
  have h2 := (hT.hidden (tid' := .rx) (by decide)).poll (radioSurroundings R ω) fuel
    (s0 := u .rx) (s := u .rx) (x := (s, [])) rfl
  rcases hp : T.pollD (radioSurroundings R ω).record fuel (s, []) with ⟨r1, x1⟩
  rw [hp] at h1 h2
  obtain ⟨v1, hv1, h1⟩ := h1
  simp only at hv1 h2
  cases r1 with
  | ready a =>
    intro hinv
    refine ⟨?_, fun p' hp' => by cases hp'⟩
    obtain ⟨v', hv', -⟩ := hQ.2.2
    have e1 : walk (useStep .tx) (u .tx)
        (Prog.dropped (radioSurroundings R ω).record Q x1).2 = some v1 := by
      rw [Prog.dropped, dropCalls_record, walk_append, hv1, Option.bind_some]
      exact walk_hidden (hQ.hidden (tid' := .tx) (by decide)).mem_waits v1
    have e2 : walk (useStep .rx) (u .rx)
        (Prog.dropped (radioSurroundings R ω).record Q x1).2 = some v' := by
      rw [Prog.dropped, dropCalls_record, walk_append, h2, Option.bind_some]
      exact hv'
    exact ⟨_, InvIf.both hinv e1 e2⟩
  | panicked => exact fun hinv => ⟨⟨_, InvIf.both hinv hv1 h2⟩, fun p' hp' => by cases hp'⟩
  | diverged => exact fun hinv => ⟨⟨_, InvIf.both hinv hv1 h2⟩, fun p' hp' => by cases hp'⟩
  | pending T' =>
    obtain ⟨h1, hd1⟩ := h1
    have hT' : Left .tx v1 T' := ⟨pollD_pending _ _ _ hT.1 _ _ _ hp, h1, hd1⟩
    have h3 := hQ.2.1.poll (radioSurroundings R ω) fuel (s0 := u .rx) (x := x1) h2
    have h4 := (hQ.hidden (tid' := .tx) (by decide)).poll (radioSurroundings R ω) fuel
      (s0 := u .tx) (s := v1) (x := x1) hv1
    simp only
    rcases hq : Q.pollD (radioSurroundings R ω).record fuel x1 with ⟨r2, x2⟩
    rw [hq] at h3 h4
    obtain ⟨v2, hv2, h3⟩ := h3
    simp only at hv2 h4
    cases r2 with
    | ready a =>
      intro hinv
      refine ⟨?_, fun p' hp' => by cases hp'⟩
      obtain ⟨v', hv', -⟩ := hd1
      have e1 : walk (useStep .tx) (u .tx)
          (Prog.dropped (radioSurroundings R ω).record T' x2).2 = some v' := by
        rw [Prog.dropped, dropCalls_record, walk_append, h4, Option.bind_some]
        exact hv'
      have e2 : walk (useStep .rx) (u .rx)
          (Prog.dropped (radioSurroundings R ω).record T' x2).2 = some v2 := by
        rw [Prog.dropped, dropCalls_record, walk_append, hv2, Option.bind_some]
        exact walk_hidden (hT'.hidden (tid' := .rx) (by decide)).mem_waits v2
      exact ⟨_, InvIf.both hinv e1 e2⟩
    | panicked => exact fun hinv => ⟨⟨_, InvIf.both hinv h4 hv2⟩, fun p' hp' => by cases hp'⟩
    | diverged => exact fun hinv => ⟨⟨_, InvIf.both hinv h4 hv2⟩, fun p' hp' => by cases hp'⟩
    | pending Q' =>
      intro hinv
      have hi' := InvIf.both hinv h4 hv2
      refine ⟨⟨_, hi'⟩, ?_⟩
      intro p' hp'
      cases hp'
      exact ⟨A, B, T', Q', _, rfl, hT', ⟨pollD_pending _ _ _ hQ.1 _ _ _ hq, h3.1, h3.2⟩, hi'⟩

theorem Running.dropped {p : Csma.Task Empty} (h : Running pre as s p) :
    ∃ u, Inv pre (p.dropped (radioSurroundings R ω) s) u as ∧ ∀ i, (u i).Idle := by
  obtain ⟨A, B, T, Q, u, rfl, hT, hQ, hi⟩ := h
  have h0 : InvIf pre u as (s, []) := by
    intro u' hu'
    have : u' = u := funext fun i => (Option.some.inj (hu' i)).symm
    rw [this]; simpa [asks, jobs] using hi
  have hw : (bothTasks T Q).waits = T.waits ++ Q.waits := rfl
  have hm := (record_map (radioSurroundings R ω)).dropCalls (T.waits ++ Q.waits) (s, [])
  simp only at hm
  have hinv := invIf_dropCalls R ω (T.waits ++ Q.waits) u (s, []) h0
  obtain ⟨a, ha, ha'⟩ := hT.2.2
  obtain ⟨b, hb, hb'⟩ := hQ.2.2
  rw [Prog.dropped, hw, hm]
  have hj : as = as ++ asks (Prog.dropCalls (radioSurroundings R ω).record (T.waits ++ Q.waits)
      (s, [])).2 := by
    rw [dropCalls_record, List.nil_append]
    generalize T.waits ++ Q.waits = l
    induction l with
    | nil => simp [asks, jobs]
    | cons e l ih => rw [List.map_cons, asks_cons]; exact ih
  rw [hj]
  refine ⟨_, InvIf.both hinv (a := a) (b := b) ?_ ?_, ?_⟩
  · rw [dropCalls_record, List.nil_append, List.map_append, walk_append, ha, Option.bind_some]
    exact walk_hidden (hQ.hidden (tid' := .tx) (by decide)).mem_waits a
  · rw [dropCalls_record, List.nil_append, List.map_append, walk_append,
      walk_hidden (hT.hidden (tid' := .rx) (by decide)).mem_waits, Option.bind_some]
    exact hb
  · intro i
    cases i
    · exact ha'
    · exact hb'

/-! ## The device -/

/-- The device while it awaits `enable`. -/
def waiting (D : Device) : Csma.Task Empty :=
  .bind (.wait (.tx, .radioEnable) id) fun _ => bothTasks (transmitTask D) (receiveTask D)

/-- Nobody uses the radio. -/
def Unused (s : RadioState E PR OR PT OT W) : Prop :=
  s.base.stuck = false ∧ s.radio.locked = false

/-- The state, and the calls so far. -/
abbrev Recorded (E PR OR PT OT W : Type) := RadioState E PR OR PT OT W × List (Ev CallAns)

/-- What is left of the device, and the record. -/
def Ready (D : Device) (x : Recorded E PR OR PT OT W) (p : Csma.Task Empty) : Prop :=
  (p = runDevice D ∧ Unused x.1 ∧ radioRecord x.1 = [] ∧ jobs x.2 = []) ∨
    (p = waiting D ∧ Unused x.1 ∧ x.1.base.enabling.isSome = true ∧
      (∃ n, 0 < n ∧ radioRecord x.1 = enabling n) ∧ jobs x.2 = []) ∨
    ∃ n, Running (enabling n ++ [.enabled]) (jobs x.2) x.1 p

theorem Inv.history {n : Nat} (h : Inv (enabling n ++ [.enabled]) s u as) :
    RadioHistory as (radioRecord s) ∧ s.base.stuck = false := by
  obtain ⟨hs, done, l, ho, h | ⟨i, -, -, h | ⟨a, es, -, ha, h, hd⟩⟩⟩ := h
  · exact ⟨by rw [radioRecord, h.2.2.2, h.2.2.1]; exact .idle n done l ho, hs⟩
  · exact ⟨by rw [radioRecord, h.2.2, h.2.1]; exact .idle n done l ho, hs⟩
  · exact ⟨by rw [radioRecord, h, ha]; exact .goingOn n done l ho a es hd.goingOn, hs⟩

theorem Inv.finished {n : Nat} (h : Inv (enabling n ++ [.enabled]) s u as)
    (hu : ∀ i, (u i).Idle) : RadioFinished as (radioRecord s) ∧ s.base.stuck = false := by
  obtain ⟨hs, done, l, ho, h | ⟨i, -, -, h | ⟨a, es, h, -⟩⟩⟩ := h
  · exact ⟨by rw [radioRecord, h.2.2.2, h.2.2.1]; exact .enabled n done l ho, hs⟩
  · exact ⟨by rw [radioRecord, h.2.2, h.2.1]; exact .enabled n done l ho, hs⟩
  · exact absurd h (hu i a)

theorem left_fresh {A : Type} {tid : Tid} {T : Csma.Task A} (h1 : T.Only (fun e => e.1 = tid))
    (h2 : Uses tid .free T (fun _ _ => True) Using.Idle) (h3 : T.waits = []) :
    Left tid .free T := ⟨h1, h2, .free, by rw [h3]; rfl, idle_free⟩

theorem running_fresh (D : Device) (hs : Unused s) (h : radioRecord s = pre) :
    Running pre [] s (bothTasks (transmitTask D) (receiveTask D)) :=
  ⟨_, _, _, _, fun _ => .free, rfl,
    left_fresh (transmitTask_only D) (transmitTask_uses D) rfl,
    left_fresh (receiveTask_only D) (receiveTask_uses D) rfl,
    hs.1, [], [], .none, .inl ⟨fun _ => rfl, hs.2, rfl, by simpa [radioRecord] using h⟩⟩

/-- What a poll leads to. -/
def Polled (D : Device) (r : Prog.Res CallAns Empty × Recorded E PR OR PT OT W) : Prop :=
  RadioHistory (jobs r.2.2) (radioRecord r.2.1) ∧ r.2.1.base.stuck = false ∧
    ∀ p, r.1 = .pending p → Ready D r.2 p

theorem polled_running (D : Device) {n : Nat} {p : Csma.Task Empty} {calls : List (Ev CallAns)}
    (h : Running (enabling n ++ [.enabled]) (jobs calls) s p) (fuel : Nat) :
    Polled D (p.pollD (radioSurroundings R ω).recordCalls fuel (s, calls)) := by
  obtain ⟨⟨u, hu⟩, h2⟩ := h.pollD R ω fuel
  exact ⟨hu.history.1, hu.history.2, fun p' hp' => .inr (.inr ⟨n, h2 p' hp'⟩)⟩

/-- A poll of `enable`, and what follows. -/
theorem polled_enable (D : Device) (hs : Unused s) {n : Nat} (h : radioRecord s = enabling n)
    (st : E) (fuel : Nat) {c1 c2 : List (Ev CallAns)} (h1 : jobs c1 = []) (h2 : jobs c2 = []) :
    Polled D (match s.lift (s.base.pollEnable (recordRadio R) st) with
      | (some _, s) => (bothTasks (transmitTask D) (receiveTask D)).pollD
          (radioSurroundings R ω).recordCalls fuel (s, c1)
      | (none, s) => (.pending (waiting D), (s, c2))) := by
  rw [WithRadio.pollEnable]
  rcases hp : R.enable.poll () st s.base.base.1 with ⟨_ | r, st', w'⟩
  · have : (recordRadio R).enable.poll () st s.base.base =
        (.pending, st', (w', s.base.base.2 ++ [.enablePending])) := by
      simp [recordRadio, logged, hp]
    rw [this]
    have hr : s.base.base.2 ++ [.enablePending] = enabling (n + 1) := by
      rw [radioRecord] at h
      rw [h, enabling, enabling, List.replicate_succ']
    refine ⟨?_, hs.1, ?_⟩
    · show RadioHistory (jobs c2) (s.base.base.2 ++ [.enablePending])
      rw [hr, h2]
      exact .enabling _
    · intro p hp
      cases hp
      exact .inr (.inl ⟨rfl, hs, rfl, ⟨n + 1, by omega, hr⟩, h2⟩)
  · have : (recordRadio R).enable.poll () st s.base.base =
        (.ready r, st', (w', s.base.base.2 ++ [.enabled])) := by
      simp [recordRadio, logged, hp]
    rw [this]
    have hr : Running (enabling n ++ [.enabled]) (jobs c1) ({ s with base := { s.base with
        base := (w', s.base.base.2 ++ [.enabled]), enabling := none } } : RadioState E PR OR PT OT W)
        (bothTasks (transmitTask D) (receiveTask D)) := by
      rw [h1]
      refine running_fresh D hs ?_
      rw [radioRecord] at h
      simp only [radioRecord, h]
    exact polled_running R ω D hr fuel

theorem jobs_snoc {l l' : List (Ev CallAns)} (h : jobs l = []) (h' : jobs l' = []) :
    jobs (l ++ l') = [] := by
  rw [jobs, List.filterMap_append]
  rw [jobs] at h h'
  rw [h, h']
  rfl

theorem Ready.pollD {D : Device} {p : Csma.Task Empty} {calls : List (Ev CallAns)}
    (h : Ready D (s, calls) p) (fuel : Nat) :
    Polled D (p.pollD (radioSurroundings R ω).recordCalls fuel (s, calls)) := by
  rcases h with ⟨rfl, hs, h, hc⟩ | ⟨rfl, hs, he, ⟨n, -, h⟩, hc⟩ | ⟨n, h⟩
  · have hp := polled_enable R ω D (n := 0) hs h (recordRadio R).enable.init fuel
      (jobs_snoc hc (l' := [.start (.tx, .radioEnable), .ret (.tx, .radioEnable) ()]) rfl)
      (jobs_snoc hc (l' := [.start (.tx, .radioEnable)]) rfl)
    have : (runDevice D).pollD (radioSurroundings R ω).recordCalls fuel (s, calls) =
        match s.lift (s.base.pollEnable (recordRadio R) (recordRadio R).enable.init) with
        | (some _, s) => (bothTasks (transmitTask D) (receiveTask D)).pollD
          (radioSurroundings R ω).recordCalls fuel
            (s, calls ++ [.start (.tx, .radioEnable), .ret (.tx, .radioEnable) ()])
        | (none, s) => (.pending (waiting D), (s, calls ++ [.start (.tx, .radioEnable)])) := by
      show Prog.pollD _ _ (Prog.bind (Prog.call (.tx, .radioEnable) id) fun _ =>
        bothTasks (transmitTask D) (receiveTask D)) _ = _
      rw [Prog.pollD, Prog.pollD]
      have : (radioSurroundings R ω).start (.tx, .radioEnable) s =
        s.lift (s.base.pollEnable (recordRadio R) (recordRadio R).enable.init) := rfl
      simp only [Prog.DropWorld.recordCalls, Prog.World.record]
      rw [this]
      rcases s.lift (s.base.pollEnable (recordRadio R) (recordRadio R).enable.init) with ⟨_ | r, s1⟩
      · rfl
      · rfl
    rw [this]
    exact hp
  · obtain ⟨st, he⟩ := Option.isSome_iff_exists.1 he
    have hp := polled_enable R ω D hs h st fuel
      (jobs_snoc hc (l' := [.ret (.tx, .radioEnable) ()]) rfl) hc
    have : (waiting D).pollD (radioSurroundings R ω).recordCalls fuel (s, calls) =
        match s.lift (s.base.pollEnable (recordRadio R) st) with
        | (some _, s) => (bothTasks (transmitTask D) (receiveTask D)).pollD
          (radioSurroundings R ω).recordCalls fuel (s, calls ++ [.ret (.tx, .radioEnable) ()])
        | (none, s) => (.pending (waiting D), (s, calls)) := by
      rw [waiting, Prog.pollD, Prog.pollD]
      have : (radioSurroundings R ω).poll (.tx, .radioEnable) s =
          s.lift (s.base.pollEnable (recordRadio R) st) := by
        show s.lift (match s.base.enabling with
          | some st => s.base.pollEnable (recordRadio R) st
          | none => (none, { s.base with stuck := true })) = _
        rw [he]
      simp only [Prog.DropWorld.recordCalls, Prog.World.record]
      rw [this]
      rcases s.lift (s.base.pollEnable (recordRadio R) st) with ⟨_ | r, s1⟩
      · rfl
      · rfl
    rw [this]
    exact hp
  · exact polled_running R ω D h fuel

theorem Ready.dropped {D : Device} {p : Csma.Task Empty} {calls : List (Ev CallAns)}
    (h : Ready D (s, calls) p) :
    RadioFinished (jobs calls) (radioRecord (p.dropped (radioSurroundings R ω) s)) ∧
      (p.dropped (radioSurroundings R ω) s).base.stuck = false := by
  rcases h with ⟨rfl, hs, h, hc⟩ | ⟨rfl, hs, he, ⟨n, hn, h⟩, hc⟩ | ⟨n, h⟩
  · show RadioFinished _ (radioRecord s) ∧ _
    simp only at h hc
    rw [h, hc]
    exact ⟨.never, hs.1⟩
  · obtain ⟨st, he⟩ := Option.isSome_iff_exists.1 he
    have : (waiting D).dropped (radioSurroundings R ω) s = { s with base := { s.base with
        base := (R.enable.drop st s.base.base.1, radioRecord s ++ [.enableDropped])
        enabling := none } } := by
      show ({ s with base := (match s.base.enabling with
        | some st => { s.base with base := (recordRadio R).enable.drop st s.base.base, enabling := none }
        | none => { s.base with stuck := true }) } : RadioState E PR OR PT OT W) = _
      rw [he]
      rfl
    rw [this]
    refine ⟨?_, hs.1⟩
    show RadioFinished _ (radioRecord s ++ [.enableDropped])
    simp only at h hc
    rw [h, hc]
    exact .enabling n hn
  · obtain ⟨u, hu, hi⟩ := h.dropped R ω
    exact hu.finished hi

theorem Ready.outside {D : Device} {p : Csma.Task Empty} {calls : List (Ev CallAns)}
    (h : Ready D (s, calls) p) (env : W → W) : Ready D (outsideActs env s, calls) p := by
  rcases h with h | h | ⟨n, A, B, T, Q, u, h1, h2, h3, h4⟩
  · exact .inl h
  · exact .inr (.inl h)
  · exact .inr (.inr ⟨n, A, B, T, Q, u, h1, h2, h3, h4.congr rfl rfl rfl rfl⟩)

theorem Ready.history {D : Device} {p : Csma.Task Empty} {calls : List (Ev CallAns)}
    (h : Ready D (s, calls) p) :
    RadioHistory (jobs calls) (radioRecord s) ∧ s.base.stuck = false := by
  rcases h with ⟨-, hs, h, hc⟩ | ⟨-, hs, -, ⟨n, -, h⟩, hc⟩ | ⟨n, A, B, T, Q, u, -, -, -, h⟩
  · simp only at h hc; rw [h, hc]; exact ⟨.enabling 0, hs.1⟩
  · simp only at h hc; rw [h, hc]; exact ⟨.enabling n, hs.1⟩
  · exact h.history

theorem Ready.runD {D : Device} (fuel : Nat) (sched : List (W → W)) :
    ∀ {p : Csma.Task Empty} {s : RadioState E PR OR PT OT W} {calls : List (Ev CallAns)},
      Ready D (s, calls) p →
      Polled D (p.runD (radioSurroundings R ω).recordCalls fuel
        ((sched.map outsideActs).map fun env x => (env x.1, x.2)) (s, calls)) := by
  induction sched with
  | nil =>
    intro p s calls h
    exact ⟨h.history.1, h.history.2, fun p' hp' => by cases hp'; exact h⟩
  | cons env sched ih =>
    intro p s calls h
    have hp := (h.outside env).pollD R ω fuel
    rw [List.map_cons, List.map_cons, Prog.runD]
    rcases hr : p.pollD (radioSurroundings R ω).recordCalls fuel (Spec.outsideActs env s, calls)
      with ⟨r, s', calls'⟩
    rw [hr] at hp
    cases r with
    | pending p' => exact ih (hp.2.2 p' rfl)
    | _ => exact hp

end

end DeviceRadio

open Prog in
/-- **C77.**  Whatever the device, its radio `R` and the outside `ω` are, whatever happens between
polls: at every moment at which the device can be stopped, the methods of the radio have been used
as `RadioHistory` says - `enable` first, then operations one after the other, each prepared before it
is started, and cancelled, once, if it is abandoned, before anything else is done; these are the
receptions and transmissions that the tasks asked for, in this order and with these arguments - and
no radio future was used wrongly or panicked; and if the device's future is dropped then, no
operation is left going on.  What the tasks asked for is what they ask for in some execution of the
device, so that everything proved of all executions holds of it. -/
theorem C77_radio {E PR OR PT OT W : Type} (D : Device) (R : RawRadio E PR OR PT OT W)
    (ω : DropWorld CallAns W) (fuel : Nat) (sched : List (W → W)) (w : W) :
    let world := deviceDropWorld (radioWorld (recordRadio R) (beside ω))
    let r := (runDevice D).runD world.recordCalls fuel
      ((sched.map outsideActs).map fun env x => (env x.1, x.2)) (atFirst w, [])
    let state := r.2.1
    let calls := r.2.2
    RadioHistory (jobs calls) (radioRecord state) ∧ state.base.stuck = false ∧
      (∀ p, r.1 = .pending p → RadioFinished (jobs calls) (radioRecord (p.dropped world state)) ∧
        (p.dropped world state).base.stuck = false) ∧
      ∃ o, Exec (runDevice D) calls o := by
  have h := DeviceRadio.Ready.runD R ω (D := D) fuel sched (p := runDevice D) (s := atFirst w)
    (calls := []) (.inl ⟨rfl, ⟨rfl, rfl⟩, rfl, rfl⟩)
  obtain ⟨o, ho, -⟩ := runD_exec (deviceDropWorld (radioWorld (recordRadio R) (beside ω))) fuel
    (sched.map outsideActs) (runDevice D) (atFirst w)
  exact ⟨h.1, h.2.1, fun p hp => (h.2.2 p hp).dropped R ω, o, ho⟩

namespace DeviceRadio

/-- What the radio is prepared for. -/
def preparation : RawEv → Option Job
  | .preparePending a => some a
  | .prepared a => some a
  | .prepareDropped a => some a
  | _ => none

theorem operation_preparation {a b : Job} {l : List RawEv} (h : Operation a l) {ev : RawEv}
    (hev : ev ∈ l) (hb : preparation ev = some b) : b = a := by
  cases h with
  | completed i j ok =>
    simp only [List.append_assoc, List.mem_append, List.mem_replicate, List.mem_singleton] at hev
    rcases hev with ⟨-, rfl⟩ | rfl | ⟨-, rfl⟩ | rfl <;> cases hb <;> rfl
  | notPrepared i hi =>
    simp only [List.mem_append, List.mem_replicate, List.mem_cons, List.not_mem_nil, or_false] at hev
    rcases hev with ⟨-, rfl⟩ | rfl | rfl <;> cases hb <;> rfl
  | notOperated i j hj =>
    simp only [List.append_assoc, List.mem_append, List.mem_replicate, List.mem_singleton,
      List.mem_cons, List.not_mem_nil, or_false] at hev
    rcases hev with ⟨-, rfl⟩ | rfl | ⟨-, rfl⟩ | rfl | rfl <;> cases hb <;> rfl

theorem goingOn_preparation {a b : Job} {l : List RawEv} (h : GoingOn a l) {ev : RawEv}
    (hev : ev ∈ l) (hb : preparation ev = some b) : b = a := by
  cases h with
  | preparing i hi =>
    rw [List.mem_replicate] at hev
    obtain ⟨-, rfl⟩ := hev
    cases hb
    rfl
  | operating i j hj =>
    simp only [List.append_assoc, List.mem_append, List.mem_replicate, List.mem_singleton] at hev
    rcases hev with ⟨-, rfl⟩ | rfl | ⟨-, rfl⟩ <;> cases hb <;> rfl

theorem operations_preparation {as : List Job} {l : List RawEv} (h : Operations as l) {ev : RawEv}
    {b : Job} (hev : ev ∈ l) (hb : preparation ev = some b) : b ∈ as := by
  induction h with
  | none => cases hev
  | more h ho ih =>
    rcases List.mem_append.1 hev with hev | hev
    · exact List.mem_append_left _ (ih hev)
    · rw [operation_preparation ho hev hb]
      simp

theorem enabling_preparation {n : Nat} {ev : RawEv} {b : Job}
    (hev : ev ∈ enabling n ++ [RawEv.enabled]) (hb : preparation ev = some b) : False := by
  simp only [enabling, List.mem_append, List.mem_replicate, List.mem_singleton] at hev
  rcases hev with ⟨-, rfl⟩ | rfl <;> cases hb

theorem history_preparation {as : List Job} {l : List RawEv} (h : RadioHistory as l) {ev : RawEv}
    {b : Job} (hev : ev ∈ l) (hb : preparation ev = some b) : b ∈ as := by
  cases h with
  | enabling n => exact (enabling_preparation (List.mem_append_left _ hev) hb).elim
  | idle n as l h =>
    rcases List.mem_append.1 hev with hev | hev
    · exact (enabling_preparation hev hb).elim
    · exact operations_preparation h hev hb
  | goingOn n as l h a o ho =>
    rcases List.mem_append.1 hev with hev | hev
    · rcases List.mem_append.1 hev with hev | hev
      · exact (enabling_preparation hev hb).elim
      · exact List.mem_append_left _ (operations_preparation h hev hb)
    · rw [goingOn_preparation ho hev hb]
      simp

end DeviceRadio

/-- **C77**, the channel: the radio is only ever prepared for the configured channel. -/
theorem C77_channel {E PR OR PT OT W : Type} (D : Device) (R : RawRadio E PR OR PT OT W)
    (ω : Prog.DropWorld CallAns W) (fuel : Nat) (sched : List (W → W)) (w : W) :
    let world := deviceDropWorld (radioWorld (recordRadio R) (beside ω))
    let r := (runDevice D).runD world.recordCalls fuel
      ((sched.map outsideActs).map fun env x => (env x.1, x.2)) (atFirst w, [])
    (∀ cfg, .prepared (.receive cfg) ∈ radioRecord r.2.1 → cfg.channel = D.config.channel) ∧
      ∀ b cfg, .prepared (.transmit b cfg) ∈ radioRecord r.2.1 →
        cfg.channel = D.config.channel := by
  obtain ⟨h1, -, -, o, ho⟩ := C77_radio D R ω fuel sched w
  refine ⟨fun cfg h => ?_, fun b cfg h => ?_⟩
  · have := DeviceRadio.history_preparation h1 h rfl
    obtain ⟨ev, hev, hj⟩ := List.mem_filterMap.1 this
    have hc := C59_channel D ho ev hev
    cases ev with
    | start e =>
      obtain ⟨i, op⟩ := e
      cases op <;> first | cases hj | skip
      exact hc.2 i cfg rfl
    | ret e r => cases hj
  · have := DeviceRadio.history_preparation h1 h rfl
    obtain ⟨ev, hev, hj⟩ := List.mem_filterMap.1 this
    have hc := C59_channel D ho ev hev
    cases ev with
    | start e =>
      obtain ⟨i, op⟩ := e
      cases op <;> first | cases hj | skip
      exact (hc.1 i b cfg rfl).1
    | ret e r => cases hj

/-! ## What the tasks are told -/

namespace DeviceRadio

/-- What a poll leads to. -/
def told {W : Type} (ans : Bool → W → Answer) (w : W) : Sync.Poll Bool → List Answer
  | .ready r => [ans r w]
  | .pending => []

theorem outcomes_append (l l' : List RawEv) : outcomes (l ++ l') = outcomes l ++ outcomes l' := by
  simp [outcomes]

section
variable {P O W : Type} (ops : RadioOps P O Unit W) (a : Job) (ans : Bool → W → Answer)

theorem operate_told (l : Locals) (s : O) (x : W × List RawEv) {r : Sync.Poll Bool}
    {st : OpState P O} {x' : W × List RawEv}
    (h : Sync.pollOperate (P := P) (loggedOps ops a ans) () l s x = .ok (r, st, x')) :
    outcomes x'.2 = outcomes x.2 ++ told ans x'.1 r := by
  rw [Sync.pollOperate] at h
  rcases hp : ops.operate.poll () s x.1 with ⟨_ | r, s1, w1⟩
  · simp only [loggedOps, logged, hp, ok.injEq, Prod.mk.injEq] at h
    obtain ⟨rfl, rfl, rfl⟩ := h
    rw [outcomes_append]; rfl
  · obtain ⟨b, c⟩ := l
    simp only [loggedOps, logged, hp, Locals.defuse, Locals.dropAll, Locals.dropOnDrop] at h
    cases h
    rw [outcomes_append]; rfl

theorem prepare_told (l : Locals) (s : P) (x : W × List RawEv) {r : Sync.Poll Bool}
    {st : OpState P O} {x' : W × List RawEv}
    (h : Sync.pollPrepare (loggedOps ops a ans) () l s x = .ok (r, st, x')) :
    outcomes x'.2 = outcomes x.2 ++ told ans x'.1 r := by
  rw [Sync.pollPrepare] at h
  rcases hp : ops.prepare.poll () s x.1 with ⟨_ | r1, s1, w1⟩
  · simp only [loggedOps, logged, hp, ok.injEq, Prod.mk.injEq] at h
    obtain ⟨rfl, rfl, rfl⟩ := h
    rw [outcomes_append]; rfl
  · have h : Sync.pollOperate (loggedOps ops a ans) () l ops.operate.init
      (w1, x.2 ++ [.prepared a]) = .ok (r, st, x') := by
      rw [← h]
      simp only [loggedOps, logged, hp]
    rw [operate_told ops a ans l _ _ h, outcomes_append]
    simp [outcomes]

theorem poll_told (st : OpState P O) (x : W × List RawEv) {r : Sync.Poll Bool}
    {st' : OpState P O} {x' : W × List RawEv}
    (h : pollRadio (loggedOps ops a ans) () st x = .ok (r, st', x')) :
    outcomes x'.2 = outcomes x.2 ++ told ans x'.1 r := by
  cases st with
  | unresumed => exact prepare_told ops a ans _ _ x h
  | preparing l s => exact prepare_told ops a ans _ _ x h
  | operating l s => exact operate_told ops a ans _ _ x h
  | returned => cases h

theorem dropAll_told (l : Locals) (x : W × List RawEv) {x' : W × List RawEv}
    (h : l.dropAll (loggedOps ops a ans) x = .ok x') : outcomes x'.2 = outcomes x.2 := by
  rcases l with ⟨_ | _, _ | _⟩ <;> cases h
  all_goals first | rfl | exact (outcomes_append _ [.cancelled]).trans (List.append_nil _)

theorem drop_told (st : OpState P O) (x : W × List RawEv) {x' : W × List RawEv}
    (h : dropRadio (loggedOps ops a ans) st x = .ok x') : outcomes x'.2 = outcomes x.2 := by
  cases st with
  | unresumed => cases h; rfl
  | preparing l s =>
    exact (dropAll_told ops a ans l _ h).trans
      ((outcomes_append _ [.prepareDropped a]).trans (List.append_nil _))
  | operating l s =>
    exact (dropAll_told ops a ans l _ h).trans
      ((outcomes_append _ [.operateDropped a.dir]).trans (List.append_nil _))
  | returned => cases h; rfl

end

section
variable {E PR OR PT OT W : Type} (R : RawRadio E PR OR PT OT W) (ω : Prog.DropWorld CallAns W)

/-- What a reception's future tells. -/
def rxTold : Option (Bool × Arr 128) → List Answer
  | some r => [.received r.1 r.2]
  | none => []

/-- What a transmission's future tells. -/
def txTold : Option Bool → List Answer
  | some r => [.transmitted r]
  | none => []

theorem pollReceive_told (s : WithRadio E PR OR PT OT (W × List RawEv)) (i : Tid) (cfg : RxConfig)
    (st : OpState PR OR) :
    outcomes (s.pollReceive (recordRadio R) i cfg st).2.base.2 =
      outcomes s.base.2 ++ rxTold (s.pollReceive (recordRadio R) i cfg st).1 := by
  have h := @poll_told _ _ _ (R.rxOps cfg) (.receive cfg) (rxAnswer R) st s.base
  rw [WithRadio.pollReceive]
  have e : (recordRadio R).rxOps cfg = loggedOps (R.rxOps cfg) (.receive cfg) (rxAnswer R) := rfl
  rw [e]
  rcases hp : pollRadio (loggedOps (R.rxOps cfg) (.receive cfg) (rxAnswer R)) () st s.base
    with ⟨_ | b, st', w⟩ | _ | _
  · exact h hp
  · exact h hp
  · exact (List.append_nil _).symm
  · exact (List.append_nil _).symm

theorem pollTransmit_told (s : WithRadio E PR OR PT OT (W × List RawEv)) (i : Tid) (b : Arr 128)
    (cfg : TxConfig) (st : OpState PT OT) :
    outcomes (s.pollTransmit (recordRadio R) i b cfg st).2.base.2 =
      outcomes s.base.2 ++ txTold (s.pollTransmit (recordRadio R) i b cfg st).1 := by
  have h := @poll_told _ _ _ (R.txOps b cfg) (.transmit b cfg) txAnswer st s.base
  rw [WithRadio.pollTransmit]
  have e : (recordRadio R).txOps b cfg = loggedOps (R.txOps b cfg) (.transmit b cfg) txAnswer := rfl
  rw [e]
  rcases hp : pollRadio (loggedOps (R.txOps b cfg) (.transmit b cfg) txAnswer) () st s.base
    with ⟨_ | b, st', w⟩ | _ | _
  · exact h hp
  · exact h hp
  · exact (List.append_nil _).symm
  · exact (List.append_nil _).symm

theorem pollEnable_told (s : WithRadio E PR OR PT OT (W × List RawEv)) (st : E) :
    outcomes (s.pollEnable (recordRadio R) st).2.base.2 = outcomes s.base.2 := by
  rw [WithRadio.pollEnable]
  simp only [recordRadio, logged]
  rcases R.enable.poll () st s.base.1 with ⟨_ | b, st', w⟩
  · exact (outcomes_append _ [.enablePending]).trans (List.append_nil _)
  · exact (outcomes_append _ [.enabled]).trans (List.append_nil _)

/-- What a call tells its task about an operation. -/
def callTold (e : Csma.Call) (r : Option (CallAns e)) : List Answer :=
  answers (match r with
    | some r => [.ret e r]
    | none => [])

theorem start_told (e : Csma.Call) (s : RadioState E PR OR PT OT W) :
    outcomes (radioRecord ((radioSurroundings R ω).start e s).2) =
      outcomes (radioRecord s) ++ callTold e ((radioSurroundings R ω).start e s).1 := by
  obtain ⟨i, op⟩ := e
  cases op with
  | radioReceive cfg =>
    refine (pollReceive_told R s.base i cfg .unresumed).trans ?_
    show _ = outcomes s.base.base.2 ++
      callTold (i, .radioReceive cfg) (s.base.pollReceive (recordRadio R) i cfg .unresumed).1
    rcases s.base.pollReceive (recordRadio R) i cfg .unresumed with ⟨_ | r, x⟩ <;> rfl
  | radioTransmit b cfg =>
    refine (pollTransmit_told R s.base i b cfg .unresumed).trans ?_
    show _ = outcomes s.base.base.2 ++
      callTold (i, .radioTransmit b cfg) (s.base.pollTransmit (recordRadio R) i b cfg .unresumed).1
    rcases s.base.pollTransmit (recordRadio R) i b cfg .unresumed with ⟨_ | r, x⟩ <;> rfl
  | radioEnable =>
    refine (pollEnable_told R s.base (recordRadio R).enable.init).trans ?_
    show _ = outcomes s.base.base.2 ++
      callTold (i, .radioEnable) (s.base.pollEnable (recordRadio R) (recordRadio R).enable.init).1
    rcases s.base.pollEnable (recordRadio R) (recordRadio R).enable.init with ⟨_ | r, x⟩ <;>
      exact (List.append_nil _).symm
  | lock =>
    show outcomes (radioRecord s.lockRadio.2) = _ ++ callTold (i, .lock) s.lockRadio.1
    rw [Shared.lockRadio]
    rcases s.radio.lockPoll (fun _ _ => true) () with ⟨_ | _, ws, m⟩ <;>
      exact (List.append_nil _).symm
  | rngLock =>
    show outcomes (radioRecord s.lockRng.2) = _ ++ callTold (i, .rngLock) s.lockRng.1
    rw [Shared.lockRng]
    rcases s.rng.lockPoll (fun _ _ => true) () with ⟨_ | _, ws, m⟩ <;>
      exact (List.append_nil _).symm
  | sendSignal =>
    show outcomes (radioRecord s.sendSignal.2) = _ ++ callTold (i, .sendSignal) s.sendSignal.1
    rw [Shared.sendSignal]
    rcases s.signal.sendAsyncPoll (fun _ _ => true) () () with ⟨_ | _, ws, m⟩ | _ | _ <;>
      exact (List.append_nil _).symm
  | recvSignal =>
    show outcomes (radioRecord s.recvSignal.2) = _ ++ callTold (i, .recvSignal) s.recvSignal.1
    rw [Shared.recvSignal]
    rcases s.signal.receivePoll () with ⟨_ | _, ws, m⟩ | _ | _ <;>
      exact (List.append_nil _).symm
  | tryLock => exact (List.append_nil _).symm
  | unlock => exact (List.append_nil _).symm
  | rngUnlock => exact (List.append_nil _).symm
  | yieldNow => exact (List.append_nil _).symm
  | driverTransmit =>
    show outcomes s.base.base.2 = _ ++ callTold (i, .driverTransmit) (ω.start (i, .driverTransmit) s.base.base.1).1
    rcases (ω.start (i, .driverTransmit) s.base.base.1).1 with _ | r <;>
      exact (List.append_nil _).symm
  | driverReceived b =>
    show outcomes s.base.base.2 = _ ++ callTold (i, .driverReceived b) (ω.start (i, .driverReceived b) s.base.base.1).1
    rcases (ω.start (i, .driverReceived b) s.base.base.1).1 with _ | r <;>
      exact (List.append_nil _).symm
  | driverError b =>
    show outcomes s.base.base.2 = _ ++ callTold (i, .driverError b) (ω.start (i, .driverError b) s.base.base.1).1
    rcases (ω.start (i, .driverError b) s.base.base.1).1 with _ | r <;>
      exact (List.append_nil _).symm
  | rngNext =>
    show outcomes s.base.base.2 = _ ++ callTold (i, .rngNext) (ω.start (i, .rngNext) s.base.base.1).1
    rcases (ω.start (i, .rngNext) s.base.base.1).1 with _ | r <;>
      exact (List.append_nil _).symm
  | delay b =>
    show outcomes s.base.base.2 = _ ++ callTold (i, .delay b) (ω.start (i, .delay b) s.base.base.1).1
    rcases (ω.start (i, .delay b) s.base.base.1).1 with _ | r <;>
      exact (List.append_nil _).symm

theorem poll_told' (e : Csma.Call) (s : RadioState E PR OR PT OT W) :
    outcomes (radioRecord ((radioSurroundings R ω).poll e s).2) =
      outcomes (radioRecord s) ++ callTold e ((radioSurroundings R ω).poll e s).1 := by
  obtain ⟨i, op⟩ := e
  cases op with
  | radioReceive cfg =>
    have : (radioSurroundings R ω).poll (i, .radioReceive cfg) s = s.lift (match s.base.current i with
      | some (.receive st) => s.base.pollReceive (recordRadio R) i cfg st
      | _ => (none, { s.base with stuck := true })) := rfl
    rw [this]
    rcases s.base.current i with _ | ⟨st⟩ | ⟨st⟩
    · exact (List.append_nil _).symm
    · refine (pollReceive_told R s.base i cfg st).trans ?_
      show _ = outcomes s.base.base.2 ++
        callTold (i, .radioReceive cfg) (s.base.pollReceive (recordRadio R) i cfg st).1
      rcases s.base.pollReceive (recordRadio R) i cfg st with ⟨_ | r, x⟩ <;> rfl
    · exact (List.append_nil _).symm
  | radioTransmit b cfg =>
    have : (radioSurroundings R ω).poll (i, .radioTransmit b cfg) s =
        s.lift (match s.base.current i with
      | some (.transmit st) => s.base.pollTransmit (recordRadio R) i b cfg st
      | _ => (none, { s.base with stuck := true })) := rfl
    rw [this]
    rcases s.base.current i with _ | ⟨st⟩ | ⟨st⟩
    · exact (List.append_nil _).symm
    · exact (List.append_nil _).symm
    · refine (pollTransmit_told R s.base i b cfg st).trans ?_
      show _ = outcomes s.base.base.2 ++
        callTold (i, .radioTransmit b cfg) (s.base.pollTransmit (recordRadio R) i b cfg st).1
      rcases s.base.pollTransmit (recordRadio R) i b cfg st with ⟨_ | r, x⟩ <;> rfl
  | radioEnable =>
    have : (radioSurroundings R ω).poll (i, .radioEnable) s = s.lift (match s.base.enabling with
      | some st => s.base.pollEnable (recordRadio R) st
      | none => (none, { s.base with stuck := true })) := rfl
    rw [this]
    rcases s.base.enabling with _ | st
    · exact (List.append_nil _).symm
    · refine (pollEnable_told R s.base st).trans ?_
      show _ = outcomes s.base.base.2 ++
        callTold (i, .radioEnable) (s.base.pollEnable (recordRadio R) st).1
      rcases s.base.pollEnable (recordRadio R) st with ⟨_ | r, x⟩ <;>
        exact (List.append_nil _).symm
  | lock =>
    show outcomes (radioRecord s.lockRadio.2) = _ ++ callTold (i, .lock) s.lockRadio.1
    rw [Shared.lockRadio]
    rcases s.radio.lockPoll (fun _ _ => true) () with ⟨_ | _, ws, m⟩ <;>
      exact (List.append_nil _).symm
  | rngLock =>
    show outcomes (radioRecord s.lockRng.2) = _ ++ callTold (i, .rngLock) s.lockRng.1
    rw [Shared.lockRng]
    rcases s.rng.lockPoll (fun _ _ => true) () with ⟨_ | _, ws, m⟩ <;>
      exact (List.append_nil _).symm
  | sendSignal =>
    show outcomes (radioRecord s.sendSignal.2) = _ ++ callTold (i, .sendSignal) s.sendSignal.1
    rw [Shared.sendSignal]
    rcases s.signal.sendAsyncPoll (fun _ _ => true) () () with ⟨_ | _, ws, m⟩ | _ | _ <;>
      exact (List.append_nil _).symm
  | recvSignal =>
    show outcomes (radioRecord s.recvSignal.2) = _ ++ callTold (i, .recvSignal) s.recvSignal.1
    rw [Shared.recvSignal]
    rcases s.signal.receivePoll () with ⟨_ | _, ws, m⟩ | _ | _ <;>
      exact (List.append_nil _).symm
  | tryLock => exact (List.append_nil _).symm
  | unlock => exact (List.append_nil _).symm
  | rngUnlock => exact (List.append_nil _).symm
  | yieldNow => exact (List.append_nil _).symm
  | driverTransmit =>
    show outcomes s.base.base.2 = _ ++ callTold (i, .driverTransmit) (ω.poll (i, .driverTransmit) s.base.base.1).1
    rcases (ω.poll (i, .driverTransmit) s.base.base.1).1 with _ | r <;>
      exact (List.append_nil _).symm
  | driverReceived b =>
    show outcomes s.base.base.2 = _ ++ callTold (i, .driverReceived b) (ω.poll (i, .driverReceived b) s.base.base.1).1
    rcases (ω.poll (i, .driverReceived b) s.base.base.1).1 with _ | r <;>
      exact (List.append_nil _).symm
  | driverError b =>
    show outcomes s.base.base.2 = _ ++ callTold (i, .driverError b) (ω.poll (i, .driverError b) s.base.base.1).1
    rcases (ω.poll (i, .driverError b) s.base.base.1).1 with _ | r <;>
      exact (List.append_nil _).symm
  | rngNext =>
    show outcomes s.base.base.2 = _ ++ callTold (i, .rngNext) (ω.poll (i, .rngNext) s.base.base.1).1
    rcases (ω.poll (i, .rngNext) s.base.base.1).1 with _ | r <;>
      exact (List.append_nil _).symm
  | delay b =>
    show outcomes s.base.base.2 = _ ++ callTold (i, .delay b) (ω.poll (i, .delay b) s.base.base.1).1
    rcases (ω.poll (i, .delay b) s.base.base.1).1 with _ | r <;>
      exact (List.append_nil _).symm



theorem drop_told' (e : Csma.Call) (s : RadioState E PR OR PT OT W) :
    outcomes (radioRecord ((radioSurroundings R ω).drop e s)) = outcomes (radioRecord s) := by
  obtain ⟨i, op⟩ := e
  cases op with
  | radioReceive cfg =>
    show outcomes (WithRadio.base (match s.base.current i with
      | some (.receive st) => s.base.dropCurrent i (dropRadio ((recordRadio R).rxOps cfg) st s.base.base)
      | _ => { s.base with stuck := true })).2 = _
    rcases s.base.current i with _ | ⟨st⟩ | ⟨st⟩
    · rfl
    · have h := @drop_told _ _ _ (R.rxOps cfg) (.receive cfg) (rxAnswer R) st s.base.base
      have e : (recordRadio R).rxOps cfg = loggedOps (R.rxOps cfg) (.receive cfg) (rxAnswer R) := rfl
      simp only [e]
      rcases hp : dropRadio (loggedOps (R.rxOps cfg) (.receive cfg) (rxAnswer R)) st s.base.base
        with x | _ | _
      · exact h hp
      · rfl
      · rfl
    · rfl
  | radioTransmit b cfg =>
    show outcomes (WithRadio.base (match s.base.current i with
      | some (.transmit st) =>
        s.base.dropCurrent i (dropRadio ((recordRadio R).txOps b cfg) st s.base.base)
      | _ => { s.base with stuck := true })).2 = _
    rcases s.base.current i with _ | ⟨st⟩ | ⟨st⟩
    · rfl
    · rfl
    · have h := @drop_told _ _ _ (R.txOps b cfg) (.transmit b cfg) txAnswer st s.base.base
      have e : (recordRadio R).txOps b cfg = loggedOps (R.txOps b cfg) (.transmit b cfg) txAnswer := rfl
      simp only [e]
      rcases hp : dropRadio (loggedOps (R.txOps b cfg) (.transmit b cfg) txAnswer) st s.base.base
        with x | _ | _
      · exact h hp
      · rfl
      · rfl
  | radioEnable =>
    show outcomes (WithRadio.base (match s.base.enabling with
      | some st => { s.base with base := (recordRadio R).enable.drop st s.base.base, enabling := none }
      | none => { s.base with stuck := true })).2 = _
    rcases s.base.enabling with _ | st
    · rfl
    · exact (outcomes_append _ [.enableDropped]).trans (List.append_nil _)
  | _ => rfl

/-- What the tasks have been told is what the radio has led to. -/
def Told (x : Recorded E PR OR PT OT W) : Prop := answers x.2 = outcomes (radioRecord x.1)

theorem told_pollD {α : Type} (p : Csma.Task α) (fuel : Nat) (x : Recorded E PR OR PT OT W)
    (h : Told x) : Told (p.pollD (radioSurroundings R ω).recordCalls fuel x).2 := by
  refine pollD_inv (S := fun _ => True) ?_ ?_ ?_ fuel p (only_any p) x h
  · rintro e ⟨s, l⟩ - h
    have hs := start_told R ω e s
    rw [Told] at h
    simp only [Prog.DropWorld.recordCalls, Prog.World.record]
    rcases hp : (radioSurroundings R ω).start e s with ⟨_ | r, s'⟩
    · rw [hp] at hs
      show answers (l ++ [.start e]) = outcomes (radioRecord s')
      rw [hs, ← h, answers, List.filterMap_append]; rfl
    · rw [hp] at hs
      show answers (l ++ [.start e, .ret e r]) = outcomes (radioRecord s')
      rw [hs, ← h, answers, List.filterMap_append]; rfl
  · rintro e ⟨s, l⟩ - h
    have hs := poll_told' R ω e s
    rw [Told] at h
    simp only [Prog.DropWorld.recordCalls, Prog.World.record]
    rcases hp : (radioSurroundings R ω).poll e s with ⟨_ | r, s'⟩
    · rw [hp] at hs
      show answers l = outcomes (radioRecord s')
      rw [hs, ← h]; exact (List.append_nil _).symm
    · rw [hp] at hs
      show answers (l ++ [.ret e r]) = outcomes (radioRecord s')
      rw [hs, ← h, answers, List.filterMap_append]; rfl
  · rintro e ⟨s, l⟩ - h
    exact h.trans (drop_told' R ω e s).symm

end

end DeviceRadio

/-- **C77**, the answers: what the calls of the device's tasks return is what the radio's methods
returned, and what was then in the buffer of a reception, in order. -/
theorem C77_answers {E PR OR PT OT W : Type} (D : Device) (R : RawRadio E PR OR PT OT W)
    (ω : Prog.DropWorld CallAns W) (fuel : Nat) (sched : List (W → W)) (w : W) :
    let world := deviceDropWorld (radioWorld (recordRadio R) (beside ω))
    let r := (runDevice D).runD world.recordCalls fuel
      ((sched.map outsideActs).map fun env x => (env x.1, x.2)) (atFirst w, [])
    answers r.2.2 = outcomes (radioRecord r.2.1) := by
  have key : ∀ (sched : List (W → W)) (p : Csma.Task Empty)
      (x : DeviceRadio.Recorded E PR OR PT OT W), DeviceRadio.Told x →
      DeviceRadio.Told (p.runD (DeviceRadio.radioSurroundings R ω).recordCalls fuel
          ((sched.map outsideActs).map fun env x => (env x.1, x.2)) x).2 := by
    intro sched
    induction sched with
    | nil => exact fun _ _ h => h
    | cons env sched ih =>
      intro p x h
      rw [List.map_cons, List.map_cons, Prog.runD]
      have hp := DeviceRadio.told_pollD R ω p fuel (outsideActs env x.1, x.2) h
      rcases hr : p.pollD (DeviceRadio.radioSurroundings R ω).recordCalls fuel
        (outsideActs env x.1, x.2) with ⟨r, s'⟩
      rw [hr] at hp
      cases r with
      | pending p' => exact ih p' s' hp
      | _ => exact hp
  exact key sched (runDevice D) (atFirst w, []) rfl

/-! ## Recording changes nothing -/

namespace DeviceRadio

/-- What a future did, without the record. -/
def noRecord {A B W : Type} : Out (A × B × (W × List RawEv)) → Out (A × B × W)
  | .ok (a, b, w) => .ok (a, b, w.1)
  | .err => .err
  | .panic => .panic

/-- The same for a drop. -/
def noRecordDrop {W : Type} : Out (W × List RawEv) → Out W
  | .ok w => .ok w.1
  | .err => .err
  | .panic => .panic

section
variable {P O W : Type} (ops : RadioOps P O Unit W) (a : Job)
  (ans : Bool → W → Answer)

theorem dropAll_noRecord (l : Locals) (x : W × List RawEv) :
    noRecordDrop (l.dropAll (loggedOps ops a ans) x) = l.dropAll ops x.1 := by
  rcases l with ⟨_ | _, _ | _⟩ <;> rfl

theorem operate_noRecord (l : Locals) (s : O) (x : W × List RawEv) :
    noRecord (Sync.pollOperate (P := P) (loggedOps ops a ans) () l s x) =
      Sync.pollOperate ops () l s x.1 := by
  rw [Sync.pollOperate, Sync.pollOperate]
  rcases h : ops.operate.poll () s x.1 with ⟨_ | r, s1, w1⟩
  · simp [loggedOps, logged, h, noRecord]
  · have := dropAll_noRecord ops a ans l.defuse (w1, x.2 ++ [.operated (ans r w1)])
    simp only [loggedOps, logged, h] at this ⊢
    rw [← this]
    generalize Locals.dropAll _ _ _ = y
    cases y <;> rfl

theorem prepare_noRecord (l : Locals) (s : P) (x : W × List RawEv) :
    noRecord (Sync.pollPrepare (loggedOps ops a ans) () l s x) = Sync.pollPrepare ops () l s x.1 := by
  rw [Sync.pollPrepare, Sync.pollPrepare]
  rcases h : ops.prepare.poll () s x.1 with ⟨_ | r, s1, w1⟩
  · simp [loggedOps, logged, h, noRecord]
  · have := operate_noRecord ops a ans l ops.operate.init (w1, x.2 ++ [.prepared a])
    simp only [← this]
    simp only [loggedOps, logged, h]

theorem poll_noRecord (st : OpState P O) (x : W × List RawEv) :
    noRecord (pollRadio (loggedOps ops a ans) () st x) = pollRadio ops () st x.1 := by
  cases st with
  | unresumed => exact prepare_noRecord ops a ans _ _ x
  | preparing l s => exact prepare_noRecord ops a ans _ _ x
  | operating l s => exact operate_noRecord ops a ans _ _ x
  | returned => rfl

theorem drop_noRecord (st : OpState P O) (x : W × List RawEv) :
    noRecordDrop (dropRadio (loggedOps ops a ans) st x) = dropRadio ops st x.1 := by
  cases st with
  | unresumed => rfl
  | preparing l s => exact dropAll_noRecord ops a ans l _
  | operating l s => exact dropAll_noRecord ops a ans l _
  | returned => rfl

end

section
variable {E PR OR PT OT W : Type} (R : RawRadio E PR OR PT OT W) (ω : Prog.DropWorld CallAns W)

/-- `forget`, below the mutexes. -/
def forgetBase (s : WithRadio E PR OR PT OT (W × List RawEv)) : WithRadio E PR OR PT OT W :=
  { base := s.base.1, enabling := s.enabling, current := s.current, stuck := s.stuck }

theorem pollReceive_forget (s : WithRadio E PR OR PT OT (W × List RawEv)) (i : Tid)
    (cfg : RxConfig) (st : OpState PR OR) :
    (forgetBase s).pollReceive R i cfg st = ((s.pollReceive (recordRadio R) i cfg st).1,
      forgetBase (s.pollReceive (recordRadio R) i cfg st).2) := by
  have h := poll_noRecord (R.rxOps cfg) (.receive cfg) (rxAnswer R) st s.base
  have e : (forgetBase s).base = s.base.1 := rfl
  rw [WithRadio.pollReceive, e, ← h, WithRadio.pollReceive]
  have e : (recordRadio R).rxOps cfg = loggedOps (R.rxOps cfg) (.receive cfg) (rxAnswer R) := rfl
  rw [e]
  rcases pollRadio (loggedOps (R.rxOps cfg) (.receive cfg) (rxAnswer R)) () st s.base with ⟨_ | b, st', w⟩ | _ | _ <;> rfl

theorem pollTransmit_forget (s : WithRadio E PR OR PT OT (W × List RawEv)) (i : Tid) (b : Arr 128)
    (cfg : TxConfig) (st : OpState PT OT) :
    (forgetBase s).pollTransmit R i b cfg st = ((s.pollTransmit (recordRadio R) i b cfg st).1,
      forgetBase (s.pollTransmit (recordRadio R) i b cfg st).2) := by
  have h := poll_noRecord (R.txOps b cfg) (.transmit b cfg) txAnswer st s.base
  have e : (forgetBase s).base = s.base.1 := rfl
  rw [WithRadio.pollTransmit, e, ← h, WithRadio.pollTransmit]
  have e : (recordRadio R).txOps b cfg = loggedOps (R.txOps b cfg) (.transmit b cfg) txAnswer := rfl
  rw [e]
  rcases pollRadio (loggedOps (R.txOps b cfg) (.transmit b cfg) txAnswer) () st s.base with ⟨_ | b, st', w⟩ | _ | _ <;>
    rfl

theorem pollEnable_forget (s : WithRadio E PR OR PT OT (W × List RawEv)) (st : E) :
    (forgetBase s).pollEnable R st = ((s.pollEnable (recordRadio R) st).1,
      forgetBase (s.pollEnable (recordRadio R) st).2) := by
  rw [WithRadio.pollEnable, WithRadio.pollEnable]
  have e : (forgetBase s).base = s.base.1 := rfl
  simp only [recordRadio, logged, e]
  rcases R.enable.poll () st s.base.1 with ⟨_ | b, st', w⟩ <;> rfl

theorem radioWorld_map :
    DropMap (radioWorld (recordRadio R) (beside ω)) (radioWorld R ω) forgetBase where
  start e s := by
    obtain ⟨i, op⟩ := e
    cases op with
    | radioReceive cfg => exact pollReceive_forget R s i cfg _
    | radioTransmit b cfg => exact pollTransmit_forget R s i b cfg _
    | radioEnable => exact pollEnable_forget R s _
    | _ => rfl
  poll e s := by
    obtain ⟨i, op⟩ := e
    cases op with
    | radioReceive cfg =>
      have hc : (forgetBase s).current i = s.current i := rfl
      simp only [radioWorld, hc]
      rcases s.current i with _ | ⟨st⟩ | ⟨st⟩
      · rfl
      · exact pollReceive_forget R s i cfg st
      · rfl
    | radioTransmit b cfg =>
      have hc : (forgetBase s).current i = s.current i := rfl
      simp only [radioWorld, hc]
      rcases s.current i with _ | ⟨st⟩ | ⟨st⟩
      · rfl
      · rfl
      · exact pollTransmit_forget R s i b cfg st
    | radioEnable =>
      have hc : (forgetBase s).enabling = s.enabling := rfl
      simp only [radioWorld, hc]
      rcases s.enabling with _ | st
      · rfl
      · exact pollEnable_forget R s st
    | _ => rfl
  drop e s := by
    obtain ⟨i, op⟩ := e
    cases op with
    | radioReceive cfg =>
      have hc : (forgetBase s).current i = s.current i := rfl
      simp only [radioWorld, hc]
      rcases s.current i with _ | ⟨st⟩ | ⟨st⟩
      · rfl
      · have h := drop_noRecord (R.rxOps cfg) (.receive cfg) (rxAnswer R) st s.base
        have e : (forgetBase s).base = s.base.1 := rfl
        have e' : (recordRadio R).rxOps cfg = loggedOps (R.rxOps cfg) (.receive cfg) (rxAnswer R) := rfl
        simp only [e, e', ← h]
        rcases dropRadio (loggedOps (R.rxOps cfg) (.receive cfg) (rxAnswer R)) st s.base with _ | _ | _ <;> rfl
      · rfl
    | radioTransmit b cfg =>
      have hc : (forgetBase s).current i = s.current i := rfl
      simp only [radioWorld, hc]
      rcases s.current i with _ | ⟨st⟩ | ⟨st⟩
      · rfl
      · rfl
      · have h := drop_noRecord (R.txOps b cfg) (.transmit b cfg) txAnswer st s.base
        have e : (forgetBase s).base = s.base.1 := rfl
        have e' : (recordRadio R).txOps b cfg = loggedOps (R.txOps b cfg) (.transmit b cfg) txAnswer := rfl
        simp only [e, e', ← h]
        rcases dropRadio (loggedOps (R.txOps b cfg) (.transmit b cfg) txAnswer) st s.base with _ | _ | _ <;> rfl
    | radioEnable =>
      have hc : (forgetBase s).enabling = s.enabling := rfl
      simp only [radioWorld, hc]
      rcases s.enabling with _ | st <;> rfl
    | _ => rfl

theorem surroundings_map :
    DropMap (radioSurroundings R ω) (deviceDropWorld (radioWorld R ω)) forget where
  start e s := by
    obtain ⟨i, op⟩ := e
    have hl : ∀ op, (forget s).lift ((radioWorld R ω).start (i, op) (forget s).base) =
        ((s.lift ((radioWorld (recordRadio R) (beside ω)).start (i, op) s.base)).1,
          forget (s.lift ((radioWorld (recordRadio R) (beside ω)).start (i, op) s.base)).2) := by
      intro op
      have := (radioWorld_map R ω).start (i, op) s.base
      have e : (forget s).base = forgetBase s.base := rfl
      rw [e, this]
      rfl
    cases op with
    | tryLock => rfl
    | lock =>
      show (forget s).lockRadio = (s.lockRadio.1, forget s.lockRadio.2)
      rw [Shared.lockRadio, Shared.lockRadio]
      have e : (forget s).radio = s.radio := rfl
      rw [e]
      rcases s.radio.lockPoll (fun _ _ => true) () with ⟨_ | _, ws, m⟩ <;> rfl
    | unlock => rfl
    | rngLock =>
      show (forget s).lockRng = (s.lockRng.1, forget s.lockRng.2)
      rw [Shared.lockRng, Shared.lockRng]
      have e : (forget s).rng = s.rng := rfl
      rw [e]
      rcases s.rng.lockPoll (fun _ _ => true) () with ⟨_ | _, ws, m⟩ <;> rfl
    | rngUnlock => rfl
    | sendSignal =>
      show (forget s).sendSignal = (s.sendSignal.1, forget s.sendSignal.2)
      rw [Shared.sendSignal, Shared.sendSignal]
      have e : (forget s).signal = s.signal := rfl
      rw [e]
      rcases s.signal.sendAsyncPoll (fun _ _ => true) () () with ⟨_ | _, ws, m⟩ | _ | _ <;> rfl
    | recvSignal =>
      show (forget s).recvSignal = (s.recvSignal.1, forget s.recvSignal.2)
      rw [Shared.recvSignal, Shared.recvSignal]
      have e : (forget s).signal = s.signal := rfl
      rw [e]
      rcases s.signal.receivePoll () with ⟨_ | _, ws, m⟩ | _ | _ <;> rfl
    | yieldNow => rfl
    | _ => exact hl _
  poll e s := by
    obtain ⟨i, op⟩ := e
    have hl : ∀ op, (forget s).lift ((radioWorld R ω).poll (i, op) (forget s).base) =
        ((s.lift ((radioWorld (recordRadio R) (beside ω)).poll (i, op) s.base)).1,
          forget (s.lift ((radioWorld (recordRadio R) (beside ω)).poll (i, op) s.base)).2) := by
      intro op
      have := (radioWorld_map R ω).poll (i, op) s.base
      have e : (forget s).base = forgetBase s.base := rfl
      rw [e, this]
      rfl
    cases op with
    | tryLock => rfl
    | lock =>
      show (forget s).lockRadio = (s.lockRadio.1, forget s.lockRadio.2)
      rw [Shared.lockRadio, Shared.lockRadio]
      have e : (forget s).radio = s.radio := rfl
      rw [e]
      rcases s.radio.lockPoll (fun _ _ => true) () with ⟨_ | _, ws, m⟩ <;> rfl
    | unlock => rfl
    | rngLock =>
      show (forget s).lockRng = (s.lockRng.1, forget s.lockRng.2)
      rw [Shared.lockRng, Shared.lockRng]
      have e : (forget s).rng = s.rng := rfl
      rw [e]
      rcases s.rng.lockPoll (fun _ _ => true) () with ⟨_ | _, ws, m⟩ <;> rfl
    | rngUnlock => rfl
    | sendSignal =>
      show (forget s).sendSignal = (s.sendSignal.1, forget s.sendSignal.2)
      rw [Shared.sendSignal, Shared.sendSignal]
      have e : (forget s).signal = s.signal := rfl
      rw [e]
      rcases s.signal.sendAsyncPoll (fun _ _ => true) () () with ⟨_ | _, ws, m⟩ | _ | _ <;> rfl
    | recvSignal =>
      show (forget s).recvSignal = (s.recvSignal.1, forget s.recvSignal.2)
      rw [Shared.recvSignal, Shared.recvSignal]
      have e : (forget s).signal = s.signal := rfl
      rw [e]
      rcases s.signal.receivePoll () with ⟨_ | _, ws, m⟩ | _ | _ <;> rfl
    | yieldNow => rfl
    | _ => exact hl _
  drop e s := by
    obtain ⟨i, op⟩ := e
    have hl : ∀ op, ({ forget s with base := (radioWorld R ω).drop (i, op) (forget s).base } :
        Shared (WithRadio E PR OR PT OT W)) =
        forget { s with base := (radioWorld (recordRadio R) (beside ω)).drop (i, op) s.base } := by
      intro op
      have := (radioWorld_map R ω).drop (i, op) s.base
      have e : (forget s).base = forgetBase s.base := rfl
      rw [e, this]
      rfl
    cases op with
    | tryLock => rfl
    | lock => rfl
    | unlock => rfl
    | rngLock => rfl
    | rngUnlock => rfl
    | sendSignal => rfl
    | recvSignal => rfl
    | yieldNow => rfl
    | _ => exact hl _

end

end DeviceRadio

/-- **C77**, the record: a device does with a radio that is recorded, its calls being recorded too,
exactly what it does with the radio itself. -/
theorem C77_recording {E PR OR PT OT W : Type} (D : Device) (R : RawRadio E PR OR PT OT W)
    (ω : Prog.DropWorld CallAns W) (fuel : Nat) (sched : List (W → W)) (w : W) :
    let world := deviceDropWorld (radioWorld (recordRadio R) (beside ω))
    let recorded := (runDevice D).runD world.recordCalls fuel
      ((sched.map outsideActs).map fun env x => (env x.1, x.2)) (atFirst w, [])
    (runDevice D).runD (deviceDropWorld (radioWorld R ω)) fuel (sched.map outsideOnly)
      { base := { base := w } } = (recorded.1, forget recorded.2.1) := by
  have hm : DropMap (DeviceRadio.radioSurroundings R ω).recordCalls
      (deviceDropWorld (radioWorld R ω)) fun x => forget x.1 :=
    { start := fun e x => by
        rw [(DeviceRadio.surroundings_map R ω).start]
        simp only [Prog.DropWorld.recordCalls, Prog.World.record]
        rcases (DeviceRadio.radioSurroundings R ω).start e x.1 with ⟨_ | r, w1⟩ <;> rfl
      poll := fun e x => by
        rw [(DeviceRadio.surroundings_map R ω).poll]
        simp only [Prog.DropWorld.recordCalls, Prog.World.record]
        rcases (DeviceRadio.radioSurroundings R ω).poll e x.1 with ⟨_ | r, w1⟩ <;> rfl
      drop := fun e x => (DeviceRadio.surroundings_map R ω).drop e x.1 }
  have key : ∀ (sched : List (W → W)) (p : Csma.Task Empty)
      (x : DeviceRadio.Recorded E PR OR PT OT W),
      p.runD (deviceDropWorld (radioWorld R ω)) fuel (sched.map outsideOnly) (forget x.1) =
        ((p.runD (DeviceRadio.radioSurroundings R ω).recordCalls fuel
          ((sched.map outsideActs).map fun env x => (env x.1, x.2)) x).1,
        forget (p.runD (DeviceRadio.radioSurroundings R ω).recordCalls fuel
          ((sched.map outsideActs).map fun env x => (env x.1, x.2)) x).2.1) := by
    intro sched
    induction sched with
    | nil => exact fun _ _ => rfl
    | cons env sched ih =>
      intro p x
      rw [List.map_cons, List.map_cons, List.map_cons, Prog.runD, Prog.runD]
      have e : outsideOnly env (forget x.1) = forget (outsideActs env x.1) := rfl
      have hp := hm.pollD fuel p (outsideActs env x.1, x.2)
      simp only at hp
      rw [e, hp]
      rcases p.pollD (DeviceRadio.radioSurroundings R ω).recordCalls fuel
        (outsideActs env x.1, x.2) with ⟨r, s'⟩
      cases r with
      | pending p' => exact ih p' s'
      | _ => rfl
  exact key sched (runDevice D) (atFirst w, [])

/-! ## An example -/

/-- An outside with at most one package to transmit. -/
def onePackage : Prog.DropWorld CallAns (Option FrameBuffer) where
  start e w := match e with
    | (_, .driverTransmit) => (w, none)
    | (_, .driverReceived _) => (some (), w)
    | (_, .driverError _) => (some (), w)
    | (_, .rngNext) => (some 5#32, w)
    | _ => (none, w)
  poll e w := match e with
    | (_, .driverTransmit) => (w, none)
    | _ => (none, w)
  drop _ w := w

/-- A method that returns `a` at its first poll, or its second, or never. -/
def method {A : Type} (a : A) : (n : Option Bool) → Sync.Task Bool Unit (Option FrameBuffer) A
  | some false => ⟨⟨false, fun _ _ w => (.ready a, true, w)⟩, fun _ w => w⟩
  | some true => ⟨⟨false, fun _ s w => (if s then .ready a else .pending, true, w)⟩, fun _ w => w⟩
  | none => ⟨⟨false, fun _ _ w => (.pending, true, w)⟩, fun _ w => w⟩

/-- A radio that is enabled at the second poll, receives nothing, and takes two polls to
transmit. -/
def quietRadio : RawRadio Bool Bool Bool Bool Bool (Option FrameBuffer) where
  enable := method () (some true)
  prepareReceive _ := method () (some false)
  receive := method true none
  prepareTransmit _ _ := method () (some false)
  transmit := method true (some true)
  cancel w := w
  received _ := padded []

/-- The surroundings of the device in the example. -/
abbrev quietWorld := deviceDropWorld (radioWorld (recordRadio quietRadio) (beside onePackage))

/-- Nothing happens for some polls; then there is a package; then nothing for `n` polls. -/
def quietSchedule (n : Nat) : List (Option FrameBuffer → Option FrameBuffer) :=
  [id, id, id, id, fun _ => some examplePackage] ++ List.replicate n id

/-- The device and its radio. -/
abbrev QuietState := DeviceRadio.RadioState Bool Bool Bool Bool Bool (Option FrameBuffer)

/-- The device is polled. -/
def quietRun (n : Nat) : Prog.Res CallAns Empty × QuietState × List (Ev CallAns) :=
  (runDevice exampleDevice).runD quietWorld.recordCalls 5
    (((quietSchedule n).map outsideActs).map fun (env : QuietState → QuietState) x =>
      (env x.1, x.2)) (atFirst none, [])

set_option maxRecDepth 40000 in
/-- The radio is enabled, a reception is abandoned for a transmission, which is going on; if the
device is dropped then, it is cancelled. -/
example : radioRecord (quietRun 2).2.1 =
      [.enablePending, .enabled, .prepared (.receive ⟨.c26⟩), .operatePending .receive,
        .operatePending .receive, .operatePending .receive, .operatePending .receive,
        .operateDropped .receive, .cancelled, .prepared (.transmit askingFrame ⟨.c26, true⟩),
        .operatePending .transmit] ∧
    jobs (quietRun 2).2.2 = [.receive ⟨.c26⟩, .transmit askingFrame ⟨.c26, true⟩] ∧
    ∃ p, (quietRun 2).1 = .pending p ∧ radioRecord (p.dropped quietWorld (quietRun 2).2.1) =
      radioRecord (quietRun 2).2.1 ++ [.operateDropped .transmit, .cancelled] :=
  ⟨rfl, rfl, _, rfl, rfl⟩

set_option maxRecDepth 40000 in
/-- A poll later it was transmitted, and the device listens for the acknowledgment. -/
example : answers (quietRun 3).2.2 = [.transmitted true] ∧
    jobs (quietRun 3).2.2 =
      [.receive ⟨.c26⟩, .transmit askingFrame ⟨.c26, true⟩, .receive ⟨.c26⟩] :=
  ⟨rfl, rfl⟩

end Dot15d4.Props
