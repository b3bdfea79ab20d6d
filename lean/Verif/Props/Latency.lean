import Verif.Props.CsmaDevice

/-!
# C73: a package is dealt with in a bounded number of steps and a bounded time

Between one package and the next the transmit task takes a bounded number of steps, and asks for
pauses of a bounded total length, however the radio, the other stations and the random numbers
behave.  What is not bounded, and is not in the program's hands, is how long the radio takes, how
long the lock is waited for (C49), and how many other frames are received while an acknowledgement
is awaited: each of those adds two steps, but no pause.
-/

namespace Dot15d4.Props
open Dot15d4 Out Spec Csma

/-- The total weight of some events. -/
def weigh (f : TxEvent → Int) (l : List TxEvent) : Int := (l.map f).sum

theorem weigh_append (f : TxEvent → Int) (l m : List TxEvent) :
    weigh f (l ++ m) = weigh f l + weigh f m := by simp [weigh]

theorem weigh_cons (f : TxEvent → Int) (e : TxEvent) (l : List TxEvent) :
    weigh f (e :: l) = f e + weigh f l := by simp [weigh]

/-- At no moment is more than `k` used up. -/
def Within (f : TxEvent → Int) (k : Int) (l : List TxEvent) : Prop :=
  ∀ l', l' <+: l → weigh f l' ≤ k

theorem Within.mono {f : TxEvent → Int} {k k' : Int} {l : List TxEvent} (h : Within f k l)
    (hk : k ≤ k') : Within f k' l := fun l' h' => (h l' h').trans hk

theorem Within.append {f : TxEvent → Int} {a b : Int} {l m : List TxEvent} (hl : Within f a l)
    (hm : Within f b m) : Within f (a + b) (l ++ m) := by
  intro l' h
  have hb : 0 ≤ b := hm [] (List.nil_prefix)
  obtain ⟨r, h⟩ := h
  rcases List.append_eq_append_iff.1 h with ⟨a, rfl, -⟩ | ⟨m', rfl, rfl⟩
  · have := hl l' (List.prefix_append _ _); omega
  · rw [weigh_append]
    have := hl l List.prefix_rfl
    have := hm m' (List.prefix_append _ _)
    omega

theorem Within.of_nonneg {f : TxEvent → Int} {k : Int} {l : List TxEvent} (h : ∀ e ∈ l, 0 ≤ f e)
    (hk : weigh f l ≤ k) : Within f k l := by
  rintro l' ⟨r, rfl⟩
  rw [weigh_append] at hk
  have : 0 ≤ weigh f r := by
    have h' : ∀ e ∈ r, 0 ≤ f e := fun e he => h e (List.mem_append_right _ he)
    clear h hk
    induction r with
    | nil => exact Int.le_refl 0
    | cons e r ih =>
      rw [weigh_cons]
      have := h' e (List.mem_cons_self ..)
      have := ih fun e he => h' e (List.mem_cons_of_mem _ he)
      omega
  omega

theorem interleave_split {E : Type} {l1 l2 l : List E} (h : Interleave l1 l2 l) :
    ∀ l', l' <+: l → ∃ l1' l2', l1' <+: l1 ∧ l2' <+: l2 ∧ Interleave l1' l2' l' := by
  induction h with
  | nil => intro l' h; rw [List.prefix_nil.1 h]; exact ⟨[], [], List.nil_prefix, List.nil_prefix, .nil⟩
  | @left x t1 t2 t _ ih =>
    intro l' h
    cases l' with
    | nil => exact ⟨[], [], List.nil_prefix, List.nil_prefix, .nil⟩
    | cons y l' =>
      obtain ⟨rfl, h'⟩ := List.cons_prefix_cons.1 h
      obtain ⟨a, b, h1, h2, h3⟩ := ih l' h'
      exact ⟨y :: a, b, List.cons_prefix_cons.2 ⟨rfl, h1⟩, h2, .left h3⟩
  | @right x t1 t2 t _ ih =>
    intro l' h
    cases l' with
    | nil => exact ⟨[], [], List.nil_prefix, List.nil_prefix, .nil⟩
    | cons y l' =>
      obtain ⟨rfl, h'⟩ := List.cons_prefix_cons.1 h
      obtain ⟨a, b, h1, h2, h3⟩ := ih l' h'
      exact ⟨a, y :: b, h1, List.cons_prefix_cons.2 ⟨rfl, h2⟩, .right h3⟩

theorem interleave_weigh {f : TxEvent → Int} {l1 l2 l : List TxEvent} (h : Interleave l1 l2 l) :
    weigh f l = weigh f l1 + weigh f l2 := by
  induction h with
  | nil => rfl
  | left _ ih => rw [weigh_cons, weigh_cons, ih]; omega
  | right _ ih => rw [weigh_cons, weigh_cons, ih]; omega

theorem Within.interleave {f : TxEvent → Int} {a b : Int} {l1 l2 l : List TxEvent}
    (h1 : Within f a l1) (h2 : Within f b l2) (h : Interleave l1 l2 l) : Within f (a + b) l := by
  intro l' hl
  obtain ⟨l1', l2', g1, g2, g3⟩ := interleave_split h l' hl
  rw [interleave_weigh g3]
  have := h1 l1' g1
  have := h2 l2' g2
  omega

/-- A weight that charges at most `x` for what is done at once, at most `p` for a backoff, `pa` for
the wait for an acknowledgement and `pr` for the pause before a retransmission, and nothing for a
reception with the listening before it. -/
structure Charges (c : Consts) (f : TxEvent → Int) (x p pa pr : Int) : Prop where
  locked : 0 ≤ f .locked ∧ f .locked ≤ x
  unlocked : 0 ≤ f .unlocked ∧ f .unlocked ≤ x
  attempt : ∀ b cfg, 0 ≤ f (.attempt b cfg) ∧ f (.attempt b cfg) ≤ x
  result : ∀ r, 0 ≤ f (.result r) ∧ f (.result r) ≤ x
  random : ∀ r, 0 ≤ f (.random r) ∧ f (.random r) ≤ x
  report : ∀ e, 0 ≤ f (.report e) ∧ f (.report e) ≤ x
  listen : ∀ cfg, 0 ≤ f (.listen cfg) ∧ f (.listen cfg) ≤ x
  heard : ∀ cfg r b, f (.listen cfg) + f (.heard r b) ≤ 0
  backoff : ∀ k r, 0 ≤ f (.pause (backoffPause c k r)) ∧ f (.pause (backoffPause c k r)) ≤ p
  ack : 0 ≤ f (.pause (ackWait c)) ∧ f (.pause (ackWait c)) ≤ pa
  retry : 0 ≤ f (.pause (retryPause c)) ∧ f (.pause (retryPause c)) ≤ pr
  cheap : x ≤ pa + pr

variable {c : Consts} {f : TxEvent → Int} {x p pa pr : Int}

theorem CcaLog.within (H : Charges c f x p pa pr) {ch : PhyChannel} {b : Arr 128} {i : Nat}
    {held : Bool} {l : List TxEvent} {res : Bool} (h : CcaLog c ch b i held l res) :
    i ≤ c.maxCsmaBackoffs ∧
    Within f ((c.maxCsmaBackoffs - i : Nat) * (6 * x + p) + (if res then 3 * x else 4 * x)) l := by
  have h1 := H.locked
  have h2 := H.unlocked
  have h3 := H.attempt b ⟨ch, true⟩
  have h4 := H.result true
  have h5 := H.result false
  have hp := H.backoff 0 0
  have htake : ∀ held, weigh f (taking held) ≤ x ∧ ∀ e ∈ taking held, 0 ≤ f e := by
    intro held
    cases held with
    | true => exact ⟨by simp [taking, weigh]; omega, by simp [taking]⟩
    | false => exact ⟨by simp [taking, weigh]; omega, by simp [taking]; omega⟩
  induction h with
  | @sent i held hi =>
    refine ⟨hi, Within.of_nonneg ?_ ?_⟩
    · intro e he
      rcases List.mem_append.1 he with he | he
      · exact (htake held).2 e he
      · simp only [List.mem_cons, List.not_mem_nil, or_false] at he
        rcases he with rfl | rfl <;> omega
    · rw [weigh_append]
      have := (htake held).1
      have hn : 0 ≤ ((c.maxCsmaBackoffs - i : Nat) : Int) * (6 * x + p) :=
        Int.mul_nonneg (Int.natCast_nonneg _) (by omega)
      simp only [weigh_cons, if_true]
      simp only [weigh, List.map_nil, List.sum_nil] at *
      omega
  | @failed held =>
    refine ⟨Nat.le_refl _, Within.of_nonneg ?_ ?_⟩
    · intro e he
      rcases List.mem_append.1 he with he | he
      · exact (htake held).2 e he
      · simp only [List.mem_cons, List.not_mem_nil, or_false] at he
        rcases he with rfl | rfl | rfl <;> omega
    · rw [weigh_append]
      have := (htake held).1
      simp only [weigh_cons, Bool.false_eq_true, if_false, Nat.sub_self]
      simp only [weigh, List.map_nil, List.sum_nil] at *
      omega
  | @again i held r l l' res hi hl _ ih =>
    refine ⟨Nat.le_of_lt hi, ?_⟩
    have h6 := H.random r
    have h7 := H.backoff i r
    have h8 := H.report (.ccaBackoff i)
    have e1 : Within f (4 * x) (taking held ++ [.attempt b ⟨ch, true⟩, .result false, .unlocked]) := by
      refine Within.of_nonneg ?_ ?_
      · intro e he
        rcases List.mem_append.1 he with he | he
        · exact (htake held).2 e he
        · simp only [List.mem_cons, List.not_mem_nil, or_false] at he
          rcases he with rfl | rfl | rfl <;> omega
      · rw [weigh_append]
        have := (htake held).1
        simp only [weigh_cons]
        simp only [weigh, List.map_nil, List.sum_nil] at *
        omega
    have e2 : Within f (x + p + x) l := by
      refine Within.interleave (a := x + p) (b := x) (Within.of_nonneg ?_ ?_)
        (Within.of_nonneg ?_ ?_) hl
      · simp; omega
      · simp [weigh]; omega
      · simp; omega
      · simp [weigh]; omega
    refine ((e1.append e2).append ih.2).mono ?_
    have : ((c.maxCsmaBackoffs - i : Nat) : Int) = (c.maxCsmaBackoffs - (i + 1) : Nat) + 1 := by omega
    rw [this, Int.add_mul]
    omega

theorem Listening.within (H : Charges c f x p pa pr) {F : RadioFormat} {ch : PhyChannel} {s : Byte}
    {l : List TxEvent} {a : Bool} (h : Listening F ch s l a) : Within f x l := by
  have h1 := H.listen ⟨ch⟩
  have key : ∀ r b l, Within f x l → Within f x (.listen ⟨ch⟩ :: .heard r b :: l) := by
    intro r b l hl l' h'
    have h2 := H.heard ⟨ch⟩ r b
    cases l' with
    | nil => simp [weigh]; omega
    | cons e l' =>
      obtain ⟨rfl, h3⟩ := List.cons_prefix_cons.1 h'
      cases l' with
      | nil => simp [weigh]; omega
      | cons e l' =>
        obtain ⟨rfl, h4⟩ := List.cons_prefix_cons.1 h3
        have := hl l' h4
        rw [weigh_cons, weigh_cons]
        omega
  have hnil : Within f x [] := Within.of_nonneg (by simp) (by simp [weigh]; omega)
  induction h with
  | acked _ => exact key _ _ _ hnil
  | still => exact Within.of_nonneg (by simp; omega) (by simp [weigh]; omega)
  | more _ _ ih => exact key _ _ _ ih

theorem AckLog.within (H : Charges c f x p pa pr) {F : RadioFormat} {ch : PhyChannel} {s : Byte}
    {l : List TxEvent} {a : Bool} (h : AckLog c F ch s l a) : Within f (x + pa) l := by
  have h1 := H.ack
  cases h with
  | acked hl h2 hi =>
    refine Within.interleave (Listening.within H hl) (Within.of_nonneg ?_ ?_) hi
    · rcases h2 with rfl | rfl <;> simp; omega
    · rcases h2 with rfl | rfl <;> simp [weigh] <;> omega
  | timeout hl hi =>
    refine Within.interleave (Listening.within H hl) (Within.of_nonneg ?_ ?_) hi
    · simp; omega
    · simp [weigh]; omega

/-- What one transmission of a package may use up. -/
def roundCost (c : Consts) (x p pa pr : Int) : Int :=
  (c.maxCsmaBackoffs - 1 : Nat) * (6 * x + p) + 6 * x + pa + pr

theorem SendLog.within {D : Device} (H : Charges D.consts f x p pa pr) {b : Arr 128}
    {seq : Option Byte} {i : Nat} {l : List TxEvent} {o : TxOutcome} (h : SendLog D b seq i l o)
    (hi : i ≤ D.consts.maxFrameRetries) :
    Within f ((D.consts.maxFrameRetries + 1 - i : Nat) * roundCost D.consts x p pa pr) l ∧
    (seq = none → Within f (roundCost D.consts x p pa pr - 2 * x) l) := by
  have h1 := H.unlocked
  have h2 := H.ack
  have h3 := H.retry
  have hc := H.cheap
  have h4 := H.backoff 0 0
  have hn : 0 ≤ ((D.consts.maxCsmaBackoffs - 1 : Nat) : Int) * (6 * x + p) :=
    Int.mul_nonneg (Int.natCast_nonneg _) (by omega)
  have hr : 0 ≤ roundCost D.consts x p pa pr := by rw [roundCost]; omega
  have up : ∀ i k l, i ≤ D.consts.maxFrameRetries → k ≤ roundCost D.consts x p pa pr →
      Within f k l → Within f ((D.consts.maxFrameRetries + 1 - i : Nat) *
        roundCost D.consts x p pa pr) l := by
    intro i k l hi hk hl
    refine hl.mono (hk.trans ?_)
    have : ((D.consts.maxFrameRetries + 1 - i : Nat) : Int) = (D.consts.maxFrameRetries - i : Nat) + 1 := by
      omega
    rw [this, Int.add_mul, Int.one_mul]
    have := Int.mul_nonneg (Int.natCast_nonneg (D.consts.maxFrameRetries - i)) hr
    omega
  induction h with
  | @ccaFailed i l hl =>
    have h5 := H.report .ccaFailed
    have e := (CcaLog.within H hl).2.append
      (Within.of_nonneg (f := f) (l := [.report .ccaFailed]) (k := x) (by simp; omega)
        (by simp [weigh]; omega))
    refine ⟨up i _ _ hi ?_ e, fun _ => e.mono ?_⟩ <;> rw [roundCost] <;>
      simp only [Bool.false_eq_true, if_false] <;> omega
  | @sent i l hs hl =>
    have e := (CcaLog.within H hl).2.append
      (Within.of_nonneg (f := f) (l := [.unlocked]) (k := x) (by simp; omega)
        (by simp [weigh]; omega))
    refine ⟨up i _ _ hi ?_ e, fun _ => e.mono ?_⟩ <;> rw [roundCost] <;>
      simp only [if_true] <;> omega
  | @acked i l l' s hs hl hl' =>
    have e := ((CcaLog.within H hl).2.append (AckLog.within H hl')).append
      (Within.of_nonneg (f := f) (l := [.unlocked]) (k := x) (by simp; omega)
        (by simp [weigh]; omega))
    refine ⟨up i _ _ hi ?_ e, fun h => by rw [hs] at h; cases h⟩
    rw [roundCost]
    simp only [if_true]
    omega
  | @ackFailed l l' s hs hl hl' =>
    have h5 := H.report .ackFailed
    have e := ((CcaLog.within H hl).2.append (AckLog.within H hl')).append
      (Within.of_nonneg (f := f) (k := 2 * x + pr)
        (l := [.unlocked, .pause (retryPause D.consts), .report .ackFailed])
        (by simp; omega) (by simp [weigh]; omega))
    refine ⟨up _ _ _ hi ?_ e, fun h => by rw [hs] at h; cases h⟩
    rw [roundCost]
    simp only [if_true]
    omega
  | @retry i l l' s l'' o hs hl hl' hlt _ ih =>
    have h5 := H.report (.ackRetry i)
    have e := ((CcaLog.within H hl).2.append (AckLog.within H hl')).append
      (Within.of_nonneg (f := f) (k := 2 * x + pr)
        (l := [.unlocked, .pause (retryPause D.consts), .report (.ackRetry i)])
        (by simp; omega) (by simp [weigh]; omega))
    refine ⟨(e.append (ih (by omega)).1).mono ?_, fun h => by rw [hs] at h; cases h⟩
    have : ((D.consts.maxFrameRetries + 1 - i : Nat) : Int) =
        (D.consts.maxFrameRetries + 1 - (i + 1) : Nat) + 1 := by omega
    rw [this, Int.add_mul, Int.one_mul]
    have : (D.consts.maxCsmaBackoffs - 1 : Nat) * (6 * x + p) + (if true = true then 3 * x else 4 * x) +
        (x + pa) + (2 * x + pr) ≤ roundCost D.consts x p pa pr := by
      rw [roundCost]
      simp only [if_true]
      omega
    omega

/-- What a package may use up after it was fetched. -/
theorem package_within {D : Device} (H : Charges D.consts f x p pa pr)
    (hr : 1 ≤ D.consts.maxFrameRetries) {q b : Arr 128}
    {seq : Option Byte} {complaints l : List TxEvent} {o : TxOutcome}
    (hp : Prepared D q b seq complaints) (hs : SendLog D b seq 1 l o) :
    Within f (D.consts.maxFrameRetries * roundCost D.consts x p pa pr) (complaints ++ l) := by
  obtain ⟨h1, h2⟩ := SendLog.within H hs hr
  rw [Nat.add_sub_cancel] at h1
  have key : ∀ e, complaints = [.report e, .report e] → seq = none →
      Within f (D.consts.maxFrameRetries * roundCost D.consts x p pa pr) (complaints ++ l) := by
    rintro e rfl hseq
    have h3 := H.report e
    refine ((Within.of_nonneg (f := f) (k := 2 * x) (l := [.report e, .report e]) (by simp; omega)
      (by simp [weigh]; omega)).append (h2 hseq)).mono ?_
    have h4 : 0 ≤ roundCost D.consts x p pa pr := by
      have := H.ack
      have := H.retry
      have := H.backoff 0 0
      have : 0 ≤ ((D.consts.maxCsmaBackoffs - 1 : Nat) : Int) * (6 * x + p) :=
        Int.mul_nonneg (Int.natCast_nonneg _) (by omega)
      rw [roundCost]; omega
    have h5 : ((D.consts.maxFrameRetries : Nat) : Int) = (D.consts.maxFrameRetries - 1 : Nat) + 1 := by
      omega
    rw [h5, Int.add_mul, Int.one_mul]
    have := Int.mul_nonneg (Int.natCast_nonneg (D.consts.maxFrameRetries - 1)) h4
    omega
  cases hp with
  | frame => exact h1
  | noDeviceFrame => exact key _ rfl rfl
  | noIeeeFrame => exact key _ rfl rfl

/-! ## Between two packages -/

theorem fetches_cons_fetched (p : FrameBuffer) (l : List TxEvent) :
    fetches (.fetched p :: l) = p :: fetches l := rfl

/-- What follows a fetch, up to the next, is the beginning of the rest of a package. -/
theorem since_fetch {D : Device} {l l1 l2 l3 : List TxEvent} {p : FrameBuffer}
    (h : TransmitLog D l) (e : l = l1 ++ .fetched p :: l2 ++ l3) (hno : fetches l2 = []) :
    ∃ (b : Arr 128) (seq : Option Byte) (complaints m : List TxEvent) (o : TxOutcome),
      Prepared D p.buffer b seq complaints ∧ SendLog D b seq 1 m o ∧ l2 <+: complaints ++ m := by
  obtain ⟨packages, last, rfl, hpk, hlast⟩ := h
  have short : ∀ body : List TxEvent, fetches body = [] → ∀ (rest : List TxEvent),
      (rest = [] ∨ ∃ q m, rest = .fetched q :: m) → l2 ++ l3 = body ++ rest → l2 <+: body := by
    intro body _ rest hrest e
    rcases List.append_eq_append_iff.1 e with ⟨a, rfl, -⟩ | ⟨a, rfl, ha⟩
    · exact List.prefix_append _ _
    · rcases hrest with rfl | ⟨q, m, rfl⟩
      · rw [List.nil_eq, List.append_eq_nil_iff] at ha
        rw [ha.1, List.append_nil]
        exact List.prefix_rfl
      · cases a with
        | nil => rw [List.append_nil]; exact List.prefix_rfl
        | cons y a =>
          simp only [List.cons_append, List.cons.injEq] at ha
          rw [← ha.1, fetches_append, fetches_cons_fetched] at hno
          simp at hno
  have tail : ∀ packages : List (List TxEvent), (∀ r ∈ packages, ∃ o, PackageLog D r o) →
      (packages.flatten ++ last = [] ∨ ∃ q m, packages.flatten ++ last = .fetched q :: m) := by
    intro packages hpk
    cases packages with
    | nil =>
      rcases hlast with rfl | ⟨rest, o, h⟩
      · exact Or.inl rfl
      · cases last with
        | nil => exact Or.inl rfl
        | cons y last =>
          generalize hq : y :: last ++ rest = q at h
          cases h
          simp only [List.cons_append, List.cons.injEq] at hq
          rw [hq.1]
          exact Or.inr ⟨_, _, rfl⟩
    | cons r packages =>
      obtain ⟨o, h⟩ := hpk r (List.mem_cons_self ..)
      cases h
      exact Or.inr ⟨_, _, rfl⟩
  induction packages generalizing l1 with
  | nil =>
    rcases hlast with rfl | ⟨rest, o, h⟩
    · simp at e
    · simp only [List.flatten_nil, List.nil_append] at e
      rw [e] at h
      generalize hq : l1 ++ .fetched p :: l2 ++ l3 ++ rest = q at h
      cases h with
      | mk p' b seq reps l o hp hs =>
        cases l1 with
        | nil =>
          simp only [List.nil_append, List.cons_append, List.cons.injEq, TxEvent.fetched.injEq,
            List.append_assoc] at hq
          obtain ⟨rfl, hq⟩ := hq
          exact ⟨b, seq, reps, l, o, hp, hs, _, hq⟩
        | cons y l1 =>
          simp only [List.cons_append, List.cons.injEq] at hq
          have := congrArg fetches hq.2
          rw [fetches_append reps, (Prepared.facts hp).2.2.2.2.2.1, SendLog.no_fetch hs] at this
          simp only [fetches_append, fetches_cons_fetched] at this
          simp at this
  | cons r packages ih =>
    have hpk' : ∀ r ∈ packages, ∃ o, PackageLog D r o := fun r hr => hpk r (List.mem_cons_of_mem _ hr)
    obtain ⟨o, h⟩ := hpk r (List.mem_cons_self ..)
    cases h with
    | mk p' b seq reps l o hp hs =>
      have nofetch : fetches (reps ++ l) = [] := by
        rw [fetches_append, (Prepared.facts hp).2.2.2.2.2.1, SendLog.no_fetch hs]; rfl
      cases l1 with
      | nil =>
        simp only [List.flatten_cons, List.nil_append, List.cons_append, List.cons.injEq,
          TxEvent.fetched.injEq, List.append_assoc] at e
        obtain ⟨rfl, e⟩ := e
        refine ⟨b, seq, reps, l, o, hp, hs, short (reps ++ l) nofetch _ (tail packages hpk') ?_⟩
        rw [List.append_assoc, e]
      | cons y l1 =>
        simp only [List.flatten_cons, List.cons_append, List.cons.injEq] at e
        have e0 := e.2
        rw [List.append_assoc, List.append_assoc l1, List.append_eq_append_iff] at e0
        rcases e0 with ⟨a, rfl, e3⟩ | ⟨a, e1, e2⟩
        · exact ih (by rw [e3, List.append_assoc]) hpk'
        · cases a with
          | nil => exact ih (l1 := []) (by rw [List.nil_append] at e2 ⊢; exact e2.symm) hpk'
          | cons y a =>
            simp only [List.cons_append, List.cons.injEq] at e2
            rw [e1, ← e2.1, fetches_append, fetches_cons_fetched] at nofetch
            simp at nofetch

/-! ## C73 -/

/-- The total of the pauses asked for, in microseconds. -/
def pauseTime (l : List TxEvent) : Nat := ((pauses l).map BitVec.toNat).sum

/-- **C73**, the steps.  At every moment of every execution of a device, whatever its surroundings do: since a
package was handed to it, and until the next is, the transmit task has taken at most
`MAC_MAX_FRAME_RETRIES * (7 * MAC_MAX_CSMA_BACKOFFS + 1)` steps (taking and releasing the radio, transmissions
and their results, random numbers, pauses, reports), and two more for each frame received while it
waited for an acknowledgement. -/
theorem C73_steps (D : Device) (hD : Sane D) {t : List (Ev CallAns)} {o : Fin Empty}
    (he : Exec (runDevice D) t o) {before since after : List TxEvent} {p : FrameBuffer}
    (hsplit : t.filterMap txEvent = before ++ .fetched p :: since ++ after)
    (hno : fetches since = []) :
    since.length ≤ D.consts.maxFrameRetries * (7 * D.consts.maxCsmaBackoffs + 1) +
      2 * (heards since).length := by
  obtain ⟨b, seq, reps, m, o, hp, hs, hpre⟩ := since_fetch (C48_device D hD he) hsplit hno
  let f : TxEvent → Int := fun | .heard _ _ => -1 | _ => 1
  have H : Charges D.consts f 1 1 1 1 := by
    constructor <;> intros <;> simp [f]
  have := package_within H hD.retries hp hs since hpre
  have e : weigh f since = since.length - 2 * (heards since).length := by
    clear hsplit hno hpre this
    induction since with
    | nil => rfl
    | cons y l ih => rw [weigh_cons, ih]; cases y <;> simp [heards, f] <;> omega
  have e2 : roundCost D.consts 1 1 1 1 = (7 * D.consts.maxCsmaBackoffs + 1 : Nat) := by
    have := hD.backoffs
    rw [roundCost]
    omega
  rw [e, e2, ← Int.natCast_mul] at this
  omega

/-- **C73**, the time.  The pauses the transmit task asks for on behalf of one package are, in total, at most
what `MAC_MAX_FRAME_RETRIES` rounds of `MAC_MAX_CSMA_BACKOFFS - 1` longest backoffs, the wait for an
acknowledgement and the pause before a retransmission add up to.  (Provided the longest backoff fits
the 32 bits of the timer's microseconds, without which C47 fails too.) -/
theorem C73_time (D : Device) (hD : Sane D) (hu : 0 ≤ D.consts.unitBackoff.us.toInt)
    (hfit : D.consts.unitBackoff.us.toInt * (2 ^ D.consts.maxBe - 1 : Nat) < 2 ^ 32)
    {t : List (Ev CallAns)} {o : Fin Empty}
    (he : Exec (runDevice D) t o) {before since after : List TxEvent} {p : FrameBuffer}
    (hsplit : t.filterMap txEvent = before ++ .fetched p :: since ++ after)
    (hno : fetches since = []) :
    (pauseTime since : Int) ≤ D.consts.maxFrameRetries *
      ((D.consts.maxCsmaBackoffs - 1 : Nat) *
          (D.consts.unitBackoff.us.toInt * (2 ^ D.consts.maxBe - 1 : Nat)) +
        (ackWait D.consts).toNat + (retryPause D.consts).toNat) := by
  obtain ⟨b, seq, reps, m, o, hp, hs, hpre⟩ := since_fetch (C48_device D hD he) hsplit hno
  let f : TxEvent → Int := fun | .pause us => us.toNat | _ => 0
  have H : Charges D.consts f 0 (D.consts.unitBackoff.us.toInt * (2 ^ D.consts.maxBe - 1 : Nat))
      (ackWait D.consts).toNat (retryPause D.consts).toNat := by
    refine ⟨by simp [f], by simp [f], fun _ _ => by simp [f], fun _ => by simp [f],
      fun _ => by simp [f], fun _ => by simp [f], fun _ => by simp [f], fun _ _ _ => by simp [f],
      fun k r => ?_,
      ⟨Int.natCast_nonneg _, Int.le_refl _⟩, ⟨Int.natCast_nonneg _, Int.le_refl _⟩, by omega⟩
    refine ⟨Int.natCast_nonneg _, ?_⟩
    obtain ⟨h1, h2⟩ := backoffPause_value D.consts hu hfit k r
    show ((backoffPause D.consts k r).toNat : Int) ≤ _
    rw [h1]
    exact h2
  have := package_within H hD.retries hp hs since hpre
  have e : weigh f since = pauseTime since := by
    clear hsplit hno hpre this
    induction since with
    | nil => rfl
    | cons y l ih => rw [weigh_cons, ih]; cases y <;> simp [pauseTime, pauses, f]
  rw [e, roundCost] at this
  simpa using this

/-- With the default constants: 339 steps, and less than four seconds of pauses. -/
theorem C73_defaults (D : Device) (hF : D.format.Lawful) (hc : D.consts = {})
    {t : List (Ev CallAns)} {o : Fin Empty}
    (he : Exec (runDevice D) t o) {before since after : List TxEvent} {p : FrameBuffer}
    (hsplit : t.filterMap txEvent = before ++ .fetched p :: since ++ after)
    (hno : fetches since = []) :
    since.length ≤ 339 + 2 * (heards since).length ∧ pauseTime since ≤ 3681864 := by
  have hD : Sane D := ⟨hF, by rw [hc]; decide, by rw [hc]; decide, by rw [hc]; decide, by rw [hc]; decide⟩
  have h1 := C73_steps D hD he hsplit hno
  have h2 := C73_time D hD (by rw [hc]; decide) (by rw [hc]; decide) he hsplit hno
  rw [hc] at h1 h2
  have e : (({} : Consts).maxFrameRetries : Int) * ((({} : Consts).maxCsmaBackoffs - 1 : Nat) *
      (({} : Consts).unitBackoff.us.toInt * (2 ^ ({} : Consts).maxBe - 1 : Nat)) +
        (ackWait ({} : Consts)).toNat + (retryPause ({} : Consts)).toNat) = 3681864 := by decide
  rw [e] at h2
  exact ⟨h1, by omega⟩

/-! ### The worst case happens -/

/-- Surroundings at their worst: every other clear channel assessment fails, and nobody ever
acknowledges. -/
def worst : Prog.World CallAns (Script × Bool) where
  start e w := match e with
    | (_, .radioTransmit _ _) => (some w.2, (w.1, !w.2))
    | (.tx, .delay _) => (some (), w)
    | e => let r := scripted.start e w.1; (r.1, (r.2, w.2))
  poll _ w := (none, w)

/-- The example device with two backoffs and two transmissions. -/
def hastyDevice : Device :=
  { exampleDevice with consts := { maxCsmaBackoffs := 2, maxFrameRetries := 2, minBe := 1 } }

theorem hastyDevice_sane : Sane hastyDevice := ⟨lengthFormat_lawful, by decide, by decide, by decide, by decide⟩

set_option maxRecDepth 40000 in
/-- The bound of `C73_steps` is reached, and the pauses are two of each kind. -/
example : ∃ t since, Exec (runDevice hastyDevice) t .pending ∧
    t.filterMap txEvent = [] ++ .fetched examplePackage :: since ++ [] ∧ fetches since = [] ∧
    since.length = hastyDevice.consts.maxFrameRetries *
      (7 * hastyDevice.consts.maxCsmaBackoffs + 1) ∧ heards since = [] ∧
    pauses since = [320, 2288, 1000, 320, 2288, 1000] := by
  obtain ⟨t, h1, h2⟩ := poll_outcome worst 50 (runDevice hastyDevice)
    (⟨some examplePackage, none, none, true⟩, false) []
  refine ⟨t, (t.filterMap txEvent).tail, outcome_pending h2, ?_⟩
  rw [List.nil_append] at h1
  rw [← h1]
  exact ⟨rfl, rfl, rfl, rfl, rfl⟩

end Dot15d4.Props
