import Verif.Spec.Sync
import Mathlib.Data.List.Basic

/-!
# C39, C40, C41: select, join, yield_now
-/

namespace Dot15d4.Sync

variable {σ τ W Ω α β : Type}

/-- The polls of both branches in one round in which both are pending. -/
def bothPending (sched : List (W × (Ω → Ω))) : PollLog W α β :=
  sched.flatMap fun e => [.first ⟨e.1, .pending⟩, .second ⟨e.1, .pending⟩]

/-- What select may do under the schedule `sched`: `r` is its result, `log` the polls it made. -/
inductive SelectRun (sched : List (W × (Ω → Ω))) :
    Option (Either α β) → PollLog W α β → Prop where
  /-- both branches stay pending at every poll -/
  | pending : SelectRun sched none (bothPending sched)
  /-- both were pending `k` times, then the first is ready; the second is not polled again -/
  | first (k : Nat) (e : W × (Ω → Ω)) (a : α) (hk : sched[k]? = some e) :
      SelectRun sched (some (.first a)) (bothPending (sched.take k) ++ [.first ⟨e.1, .ready a⟩])
  /-- both were pending `k` times, then the first is pending once more and the second is ready -/
  | second (k : Nat) (e : W × (Ω → Ω)) (b : β) (hk : sched[k]? = some e) :
      SelectRun sched (some (.second b)) (bothPending (sched.take k) ++
        [.first ⟨e.1, .pending⟩, .second ⟨e.1, .ready b⟩])

theorem select_drive (f : Fut σ W Ω α) (g : Fut τ W Ω β) :
    ∀ (sched : List (W × (Ω → Ω))) (s : σ × τ) (w : Ω) (log : PollLog W α β),
      ∃ l, (drive (select (recordFirst β f) (recordSecond α g)) (onWorld sched) s (w, log)).2.2.2
          = log ++ l ∧
        SelectRun sched
          (drive (select (recordFirst β f) (recordSecond α g)) (onWorld sched) s (w, log)).1 l
  | [], s, w, log => ⟨[], by simp [drive, onWorld], by
      simpa [drive, onWorld, bothPending] using SelectRun.pending (sched := [])⟩
  | (cx, env) :: sched, s, w, log => by
    cases h1 : f.poll cx s.1 (env w) with
    | mk p1 r1 =>
      obtain ⟨s1, w1⟩ := r1
      cases p1 with
      | ready a =>
        refine ⟨[.first ⟨cx, .ready a⟩], ?_, ?_⟩
        · simp [drive, onWorld, select, recordFirst, h1]
        · have := SelectRun.first (β := β) (sched := (cx, env) :: sched) 0 (cx, env) a rfl
          simpa [drive, onWorld, select, recordFirst, h1, bothPending] using this
      | pending =>
        cases h2 : g.poll cx s.2 w1 with
        | mk p2 r2 =>
          obtain ⟨s2, w2⟩ := r2
          cases p2 with
          | ready b =>
            refine ⟨[.first ⟨cx, .pending⟩, .second ⟨cx, .ready b⟩], ?_, ?_⟩
            · simp [drive, onWorld, select, recordFirst, recordSecond, h1, h2]
            · have := SelectRun.second (α := α) (sched := (cx, env) :: sched) 0 (cx, env) b rfl
              simpa [drive, onWorld, select, recordFirst, recordSecond, h1, h2, bothPending]
                using this
          | pending =>
            obtain ⟨l, hl, hr⟩ := select_drive f g sched (s1, s2) w2
              (log ++ [.first ⟨cx, .pending⟩, .second ⟨cx, .pending⟩])
            have hd : drive (select (recordFirst β f) (recordSecond α g))
                (onWorld ((cx, env) :: sched)) s (w, log) =
                drive (select (recordFirst β f) (recordSecond α g)) (onWorld sched) (s1, s2)
                  (w2, log ++ [.first ⟨cx, .pending⟩, .second ⟨cx, .pending⟩]) := by
              simp [drive, onWorld, select, recordFirst, recordSecond, h1, h2]
            rw [hd]
            refine ⟨[.first ⟨cx, .pending⟩, .second ⟨cx, .pending⟩] ++ l, by simp [hl], ?_⟩
            generalize (drive (select (recordFirst β f) (recordSecond α g)) (onWorld sched) (s1, s2)
              (w2, log ++ [.first ⟨cx, .pending⟩, .second ⟨cx, .pending⟩])).1 = r at hr ⊢
            cases hr with
            | pending =>
              simpa [bothPending] using SelectRun.pending (α := α) (β := β)
                (sched := (cx, env) :: sched)
            | first k e a hk =>
              have := SelectRun.first (β := β) (sched := (cx, env) :: sched) (k + 1) e a
                (by simpa using hk)
              simpa [bothPending] using this
            | second k e b hk =>
              have := SelectRun.second (α := α) (sched := (cx, env) :: sched) (k + 1) e b
                (by simpa using hk)
              simpa [bothPending] using this

/-- **C39.** For all futures, worlds and schedules: at each poll `select` polls the first future
and, only if that is pending, the second, both with the waker of that poll; it resolves at the first
poll at which one of them is ready, with that one's output (the first's if the first is ready), and
polls neither again. -/
theorem C39_select (f : Fut σ W Ω α) (g : Fut τ W Ω β) (sched : List (W × (Ω → Ω))) (w : Ω) :
    let out := drive (select (recordFirst β f) (recordSecond α g)) (onWorld sched)
      (select (recordFirst β f) (recordSecond α g)).init (w, [])
    SelectRun sched out.1 out.2.2.2 := by
  have e : (select (recordFirst β f) (recordSecond α g)).init = (f.init, g.init) := rfl
  rw [e]
  obtain ⟨l, hl, hr⟩ := select_drive f g sched (f.init, g.init) w []
  simp only [List.nil_append] at hl
  simpa only [hl] using hr

/-- A future that is ready with `a` at its poll number `n` (from 0). -/
def readyAt (n : Nat) (a : α) : Fut Nat W Ω α where
  init := 0
  poll _ s w := if n ≤ s then (.ready a, s, w) else (.pending, s + 1, w)

example : (drive (select (recordFirst Char (readyAt 2 'a')) (recordSecond Char (readyAt 1 'b')))
    (onWorld (Ω := Unit) [(10, id), (11, id), (12, id)]) (0, 0) ((), [])).1 = some (.second 'b') :=
  rfl

example : (drive (select (recordFirst Char (readyAt 1 'a')) (recordSecond Char (readyAt 1 'b')))
    (onWorld (Ω := Unit) [(10, id), (11, id), (12, id)]) (0, 0) ((), [])).1 = some (.first 'a') :=
  rfl

/-! ## join -/

/-- The polls made of the first branch. -/
def firstPolls (l : PollLog W α β) : List (PollEvent W α) :=
  l.filterMap fun | .first e => some e | .second _ => none

/-- The polls made of the second branch. -/
def secondPolls (l : PollLog W α β) : List (PollEvent W β) :=
  l.filterMap fun | .first _ => none | .second e => some e

/-- The polls of one branch of a join under the contexts `cxs`: `out = none`, polled with each of
them and pending every time; `out = some a`, polled with the first few, pending until the last of
these polls, which gave `a`. -/
inductive Branch (cxs : List W) : List (PollEvent W α) → Option α → Prop where
  | unfinished : Branch cxs (cxs.map fun cx => ⟨cx, .pending⟩) none
  | finished (n : Nat) (cx : W) (a : α) (hn : cxs[n]? = some cx) :
      Branch cxs (((cxs.take n).map fun cx => ⟨cx, .pending⟩) ++ [⟨cx, .ready a⟩]) (some a)

theorem Branch.snoc_pending {cxs : List W} {l : List (PollEvent W α)} (h : Branch cxs l none)
    (cx : W) : Branch (cxs ++ [cx]) (l ++ [⟨cx, .pending⟩]) none := by
  cases h
  simpa using Branch.unfinished (α := α) (cxs := cxs ++ [cx])

theorem Branch.snoc_ready {cxs : List W} {l : List (PollEvent W α)} (h : Branch cxs l none)
    (cx : W) (a : α) : Branch (cxs ++ [cx]) (l ++ [⟨cx, .ready a⟩]) (some a) := by
  cases h
  have := Branch.finished (cxs := cxs ++ [cx]) cxs.length cx a (by simp)
  simpa using this

theorem Branch.snoc_finished {cxs : List W} {l : List (PollEvent W α)} {a : α}
    (h : Branch cxs l (some a)) (cx : W) : Branch (cxs ++ [cx]) l (some a) := by
  cases h with
  | finished n cx' a hn =>
    have hlt : n < cxs.length := by
      rw [List.getElem?_eq_some_iff] at hn; exact hn.1
    have := Branch.finished (cxs := cxs ++ [cx]) n cx' a (by
      rw [List.getElem?_append_left hlt]; exact hn)
    rwa [List.take_append_of_le_length (Nat.le_of_lt hlt)] at this

/-- The state of a join branch agrees with the polls made of it. -/
def branchOut {S : Type} : Either S (Option α) → Option (Option α)
  | .first _ => some none
  | .second (some a) => some (some a)
  | .second none => none

/-- One branch of one poll of a join. -/
theorem branch_first (f : Fut σ W Ω α) (cxs : List W) (cx : W) (s : Either σ (Option α)) (w : Ω)
    (log : PollLog W α β) (o : Option α) (hs : branchOut s = some o)
    (h : Branch cxs (firstPolls log) o) :
    ∃ (s' : Either σ (Option α)) (w' : Ω) (log' : PollLog W α β) (o' : Option α),
      joinBranch (recordFirst β f) cx s (w, log) = (s', (w', log')) ∧ branchOut s' = some o' ∧
      Branch (cxs ++ [cx]) (firstPolls log') o' ∧ secondPolls log' = secondPolls log := by
  cases s with
  | first st =>
    cases hs
    cases h1 : f.poll cx st w with
    | mk p r =>
      obtain ⟨st', w'⟩ := r
      cases p with
      | pending =>
        refine ⟨.first st', w', log ++ [.first ⟨cx, .pending⟩], none, ?_, rfl, ?_, ?_⟩
        · simp [joinBranch, pollFuture, recordFirst, h1]
        · simpa [firstPolls] using h.snoc_pending cx
        · simp [secondPolls]
      | ready a =>
        refine ⟨.second (some a), w', log ++ [.first ⟨cx, .ready a⟩], some a, ?_, rfl, ?_, ?_⟩
        · simp [joinBranch, pollFuture, recordFirst, h1]
        · simpa [firstPolls] using h.snoc_ready cx a
        · simp [secondPolls]
  | second r =>
    cases r with
    | none => cases hs
    | some a => cases hs; exact ⟨_, _, _, _, rfl, rfl, h.snoc_finished cx, rfl⟩

theorem branch_second (g : Fut τ W Ω β) (cxs : List W) (cx : W) (s : Either τ (Option β))
    (w : Ω) (log : PollLog W α β) (o : Option β) (hs : branchOut s = some o)
    (h : Branch cxs (secondPolls log) o) :
    ∃ (s' : Either τ (Option β)) (w' : Ω) (log' : PollLog W α β) (o' : Option β),
      joinBranch (recordSecond α g) cx s (w, log) = (s', (w', log')) ∧ branchOut s' = some o' ∧
      Branch (cxs ++ [cx]) (secondPolls log') o' ∧ firstPolls log' = firstPolls log := by
  cases s with
  | first st =>
    cases hs
    cases h1 : g.poll cx st w with
    | mk p r =>
      obtain ⟨st', w'⟩ := r
      cases p with
      | pending =>
        refine ⟨.first st', w', log ++ [.second ⟨cx, .pending⟩], none, ?_, rfl, ?_, ?_⟩
        · simp [joinBranch, pollFuture, recordSecond, h1]
        · simpa [secondPolls] using h.snoc_pending cx
        · simp [firstPolls]
      | ready a =>
        refine ⟨.second (some a), w', log ++ [.second ⟨cx, .ready a⟩], some a, ?_, rfl, ?_, ?_⟩
        · simp [joinBranch, pollFuture, recordSecond, h1]
        · simpa [secondPolls] using h.snoc_ready cx a
        · simp [firstPolls]
  | second r =>
    cases r with
    | none => cases hs
    | some a => cases hs; exact ⟨_, _, _, _, rfl, rfl, h.snoc_finished cx, rfl⟩

/-- What join may do at the polls with contexts `cxs`: each branch is polled until it is done, and
the result is there exactly when both are. -/
def JoinRun (cxs : List W) (r : Option (α × β)) (log : PollLog W α β) : Prop :=
  ∃ (o1 : Option α) (o2 : Option β),
    Branch cxs (firstPolls log) o1 ∧ Branch cxs (secondPolls log) o2 ∧
    r = (do let a ← o1; let b ← o2; pure (a, b))

theorem join_drive (f : Fut σ W Ω α) (g : Fut τ W Ω β) :
    ∀ (sched : List (W × (Ω → Ω))) (cxs : List W)
      (s : Either σ (Option α) × Either τ (Option β)) (w : Ω) (log : PollLog W α β)
      (o1 : Option α) (o2 : Option β), branchOut s.1 = some o1 → branchOut s.2 = some o2 →
      Branch cxs (firstPolls log) o1 → Branch cxs (secondPolls log) o2 →
      (o1 = none ∨ o2 = none) →
      ∃ n, n ≤ sched.length ∧
        (let out := drive (join (recordFirst β f) (recordSecond α g)) (onWorld sched) s (w, log)
         JoinRun (cxs ++ (sched.take n).map (·.1)) out.1 out.2.2.2 ∧
         (out.1 = none → n = sched.length))
  | [], cxs, s, w, log, o1, o2, h1, h2, b1, b2, hor => by
    refine ⟨0, by simp, ⟨o1, o2, by simpa [drive, onWorld] using b1,
      by simpa [drive, onWorld] using b2, ?_⟩, by simp⟩
    rcases hor with rfl | rfl
    · simp [drive, onWorld]
    · cases o1 <;> simp [drive, onWorld]
  | (cx, env) :: sched, cxs, s, w, log, o1, o2, h1, h2, b1, b2, hor => by
    obtain ⟨s1, w1, log1, o1', e1, hs1, hb1, hq1⟩ :=
      branch_first f cxs cx s.1 (env w) log o1 h1 b1
    obtain ⟨s2, w2, log2, o2', e2, hs2, hb2, hq2⟩ :=
      branch_second g cxs cx s.2 w1 log1 o2 h2 (by rw [hq1]; exact b2)
    have hb1' : Branch (cxs ++ [cx]) (firstPolls log2) o1' := by rw [hq2]; exact hb1
    -- the join is not done: continue
    have hcont : (o1' = none ∨ o2' = none) →
        (join (recordFirst β f) (recordSecond α g)).poll cx s (env w, log) =
          (.pending, (s1, s2), (w2, log2)) →
        ∃ n, n ≤ ((cx, env) :: sched).length ∧
          (let out := drive (join (recordFirst β f) (recordSecond α g))
            (onWorld ((cx, env) :: sched)) s (w, log)
           JoinRun (cxs ++ (((cx, env) :: sched).take n).map (·.1)) out.1 out.2.2.2 ∧
           (out.1 = none → n = ((cx, env) :: sched).length)) := by
      intro hor' hp
      obtain ⟨n, hn, hrun, hnone⟩ :=
        join_drive f g sched (cxs ++ [cx]) (s1, s2) w2 log2 o1' o2' hs1 hs2 hb1' hb2 hor'
      have hd : drive (join (recordFirst β f) (recordSecond α g)) (onWorld ((cx, env) :: sched)) s
          (w, log) = drive (join (recordFirst β f) (recordSecond α g)) (onWorld sched) (s1, s2)
          (w2, log2) := by
        simp only [onWorld, List.map_cons, drive]
        rw [hp]
      refine ⟨n + 1, by simpa using hn, ?_, ?_⟩
      · rw [hd]; simpa using hrun
      · rw [hd]; intro h; simpa using hnone h
    cases s1 with
    | first st => cases hs1; exact hcont (Or.inl rfl) (by simp only [join, e1, e2])
    | second r1 =>
      cases r1 with
      | none => cases hs1
      | some a =>
        cases hs1
        cases s2 with
        | first st => cases hs2; exact hcont (Or.inr rfl) (by simp only [join, e1, e2])
        | second r2 =>
          cases r2 with
          | none => cases hs2
          | some b =>
            cases hs2
            have hd : drive (join (recordFirst β f) (recordSecond α g))
                (onWorld ((cx, env) :: sched)) s (w, log) =
                (some (a, b), (.second none, .second none), (w2, log2)) := by
              simp only [onWorld, List.map_cons, drive, join, e1, e2]
            refine ⟨1, by simp, ?_, ?_⟩
            · rw [hd]; exact ⟨some a, some b, by simpa using hb1', by simpa using hb2, rfl⟩
            · rw [hd]; simp

/-- **C40.** For all futures, worlds and schedules: at each of its polls `join` polls each future
that is not finished, with the waker of that poll, never polls a finished one again, and has the
pair of the two outputs exactly when both have finished - at the first poll after which that is the
case, since the statement holds of every schedule.  (`n` is the number of polls made.) -/
theorem C40_join (f : Fut σ W Ω α) (g : Fut τ W Ω β) (sched : List (W × (Ω → Ω))) (w : Ω) :
    ∃ n, n ≤ sched.length ∧
      (let out := drive (join (recordFirst β f) (recordSecond α g)) (onWorld sched)
        (join (recordFirst β f) (recordSecond α g)).init (w, [])
       JoinRun ((sched.take n).map (·.1)) out.1 out.2.2.2 ∧ (out.1 = none → n = sched.length)) := by
  have e : (join (recordFirst β f) (recordSecond α g)).init = (.first f.init, .first g.init) := rfl
  rw [e]
  have := join_drive f g sched [] (.first f.init, .first g.init) w [] none none rfl rfl
    (by simpa [firstPolls] using Branch.unfinished (α := α) (cxs := ([] : List W)))
    (by simpa [secondPolls] using Branch.unfinished (α := β) (cxs := ([] : List W)))
    (Or.inl rfl)
  simpa using this

/-- **C40.** A join polled after it completed stays pending and polls neither future. -/
theorem C40_join_fused (f : Fut σ W Ω α) (g : Fut τ W Ω β) (sched : List (W × (Ω → Ω))) (w : Ω)
    (r : α × β)
    (hdone : (drive (join f g) sched (join f g).init w).1 = some r) (cx : W) (w' : Ω) :
    (join f g).poll cx (drive (join f g) sched (join f g).init w).2.1 w' =
      (.pending, (drive (join f g) sched (join f g).init w).2.1, w') := by
  have hgen : ∀ (sched : List (W × (Ω → Ω))) s w,
      (drive (join f g) sched s w).1 = some r →
      (drive (join f g) sched s w).2.1 = (.second none, .second none) := by
    intro sched
    induction sched with
    | nil => intro s w h; simp [drive] at h
    | cons e sched ih =>
      intro s w h
      obtain ⟨cx, env⟩ := e
      simp only [drive] at h ⊢
      cases hp : (join f g).poll cx s (env w) with
      | mk p q =>
        obtain ⟨s', w'⟩ := q
        rw [hp] at h
        cases p with
        | pending => exact ih s' w' h
        | ready a =>
          simp only [join] at hp
          split at hp <;> cases hp
          rfl
  have hst := hgen sched _ w hdone
  rw [hst]
  rfl

example : (drive (join (recordFirst Char (readyAt 2 'a')) (recordSecond Char (readyAt 1 'b')))
    (onWorld (Ω := Unit) [(10, id), (11, id), (12, id), (13, id)]) (.first 0, .first 0) ((), [])).1
    = some ('a', 'b') := rfl

example : (drive (join (recordFirst Char (readyAt 2 'a')) (recordSecond Char (readyAt 1 'b')))
    (onWorld (Ω := Unit) [(10, id), (11, id)]) (.first 0, .first 0) ((), [])).1 = none := rfl

/-! ## The result of a select -/

/-- **C39**, reading the result: `is_first` and `is_second` tell which future was ready. -/
theorem C39_either {α : Type u} {β : Type v} (r : Either α β) :
    (r.isFirst = true ↔ ∃ a, r = .first a) ∧ (r.isSecond = true ↔ ∃ b, r = .second b) := by
  cases r <;> simp [Either.isFirst, Either.isSecond]

/-! ## yield_now -/

/-- **C41.** Polled once, by whatever waker `c0`, `yield_now` is pending and has woken `c0` once;
polled a second time it is ready and has woken nobody else. -/
theorem C41_yield_now (c0 c1 : W) (e0 e1 : Ω → Ω) (rest : List (W × (Ω → Ω))) (w : Ω) :
    drive (yieldNow (W := W) (Ω := Ω)) (onWorld [(c0, e0)]) (yieldNow (W := W) (Ω := Ω)).init (w, []) =
      (none, true, (e0 w, [c0])) ∧
    drive (yieldNow (W := W) (Ω := Ω)) (onWorld ((c0, e0) :: (c1, e1) :: rest))
      (yieldNow (W := W) (Ω := Ω)).init (w, []) =
      (some (), true, (e1 (e0 w), [c0])) := by
  constructor <;> rfl

end Dot15d4.Sync
