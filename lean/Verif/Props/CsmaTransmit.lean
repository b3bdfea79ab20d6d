import Verif.Lemmas.CsmaTransmit
import Verif.Props.CsmaReceive

/-!
# C46, C47, C48: transmitting a package
-/

namespace Dot15d4.Props
open Dot15d4 Out Spec Csma
open Dot15d4.Sync (Either)

/-! ## Taking the radio, backing off -/

theorem acquireLock_traces (held : Bool) :
    Traces txEvent (acquireLock held) fun u o =>
      u <+: taking held ∧ ∀ a, o = some a → u = taking held := by
  rw [Traces, acquireLock]
  cases held with
  | true =>
    refine Triple.pure ?_
    rintro l rfl
    exact ⟨⟨⟨[], rfl⟩, fun _ _ => rfl⟩, ⟨[], rfl⟩, by simp⟩
  | false =>
    refine Triple.loop (I := fun _ l => l = []) ?_ ?_ ?_
    · rintro _ l rfl
      exact ⟨⟨_, rfl⟩, by simp⟩
    · rintro _ l ⟨h, -⟩
      exact ⟨h, by simp⟩
    · intro _
      refine Triple.bind (R := fun (r : Bool) l => l = if r then [.locked] else [])
        (Triple.await ?_) ?_
      · rintro l rfl
        refine ⟨⟨⟨_, rfl⟩, by simp⟩, ⟨⟨_, rfl⟩, by simp⟩, ?_⟩
        intro (r : Bool)
        cases r <;> rfl
      · intro (r : Bool)
        cases r with
        | true =>
          refine Triple.pure ?_
          rintro l rfl
          exact ⟨⟨⟨[], rfl⟩, fun _ _ => rfl⟩, ⟨[], rfl⟩, by simp⟩
        | false =>
          refine Triple.bind (R := fun _ l => l = [])
            (Triple.await_neutral rfl (fun _ => rfl) ?_) ?_
          · rintro l rfl
            exact ⟨⟨⟨_, rfl⟩, by simp⟩, fun _ => rfl⟩
          · intro _
            refine Triple.pure ?_
            rintro l rfl
            exact ⟨rfl, ⟨_, rfl⟩, by simp⟩

/-- The pauses of a transmission: the backoff exponent of the `k`-th. -/
theorem performBackoff_traces (c : Consts) (hc : c.maxBe ≤ 31 ∧ c.minBe < 65535) (be k : Nat)
    (hb : be < 65535) (hk : min (be + 1) c.maxBe = min (c.minBe + k) c.maxBe) :
    Traces txEvent (performBackoff c (.exponential be)) fun u o =>
      (∃ r, u <+: [.random r, .pause (backoffPause c k r)]) ∧
      ∀ b, o = some b → b = .exponential (min (c.minBe + k) c.maxBe) ∧
        ∃ r, u = [.random r, .pause (backoffPause c k r)] := by
  have hbe : min (c.minBe + k) c.maxBe < 32 := by omega
  have hin : incr16 be = .ok (be + 1) := by rw [incr16, if_pos (by omega)]
  rw [Traces, performBackoff]
  simp only [hin, Out.bind, hk]
  refine Triple.bind (R := fun one l => l = [] ∧ one = 1#32 <<< (min (c.minBe + k) c.maxBe))
    (Triple.lift ?_) ?_
  · rintro l rfl
    exact ⟨_, shl1_ok hbe, ⟨rfl, rfl⟩, ⟨0, _, rfl⟩, by simp⟩
  intro one
  refine Triple.bind (R := fun _ l => l = [] ∧ one = 1#32 <<< (min (c.minBe + k) c.maxBe))
    (Triple.await_neutral rfl (fun _ => rfl) ?_) ?_
  · rintro l ⟨rfl, rfl⟩
    exact ⟨⟨⟨0, _, rfl⟩, by simp⟩, fun _ => ⟨rfl, rfl⟩⟩
  intro _
  refine Triple.bind (R := fun (r : BitVec 32) l => l = [.random r] ∧
    one = 1#32 <<< (min (c.minBe + k) c.maxBe)) (Triple.await ?_) ?_
  · rintro l ⟨rfl, rfl⟩
    exact ⟨⟨⟨0, _, rfl⟩, by simp⟩, ⟨⟨0, _, rfl⟩, by simp⟩, fun r => ⟨rfl, rfl⟩⟩
  intro r
  refine Triple.bind (R := fun _ l => l = [.random r] ∧
    one = 1#32 <<< (min (c.minBe + k) c.maxBe)) (Triple.await_neutral rfl (fun _ => rfl) ?_) ?_
  · rintro l ⟨rfl, rfl⟩
    exact ⟨⟨⟨r, [_], rfl⟩, by simp⟩, fun _ => ⟨rfl, rfl⟩⟩
  intro _
  refine Triple.bind (R := fun _ l => l = [.random r, .pause (backoffPause c k r)])
    (Triple.await ?_) ?_
  · rintro l ⟨rfl, rfl⟩
    rw [backoffDelay_eq c k r hbe]
    exact ⟨⟨⟨r, [_], rfl⟩, by simp⟩, ⟨⟨r, [], rfl⟩, by simp⟩, fun _ => rfl⟩
  intro _
  refine Triple.pure ?_
  rintro l rfl
  refine ⟨⟨⟨r, [], rfl⟩, ?_⟩, ⟨r, [], rfl⟩, by simp⟩
  rintro b ⟨⟩
  exact ⟨rfl, r, rfl⟩

theorem report_traces (e : DriverError) :
    Traces txEvent (tx (.driverError e)) fun u o =>
      u <+: [.report e] ∧ ∀ a, o = some a → u = [.report e] := by
  rw [Traces, tx]
  refine Triple.await ?_
  rintro l rfl
  exact ⟨⟨⟨_, rfl⟩, by simp⟩, ⟨⟨[], rfl⟩, by simp⟩, fun r => ⟨⟨[], rfl⟩, fun _ _ => rfl⟩⟩

/-! ## C46 -/

theorem interleave_nil_right {E : Type} {t u : List E} (h : Interleave t [] u) : u = t := by
  induction t generalizing u with
  | nil => cases h; rfl
  | cons x t ih => cases h with | left h => rw [ih h]

/-- The invariant of the loop of `transmit_cca`: what is still to come completes the log. -/
def CcaInv (c : Consts) (ch : PhyChannel) (b : Arr 128) (held : Bool) (s : CcaState)
    (l : List TxEvent) : Prop :=
  1 ≤ s.i ∧ s.i ≤ c.maxCsmaBackoffs ∧
  (∃ be, s.backoff = .exponential be ∧ be < 65535 ∧ min (be + 1) c.maxBe = min (c.minBe + s.i) c.maxBe) ∧
  ∀ l' ok, CcaLog c ch b s.i s.held l' ok → CcaLog c ch b 1 held (l ++ l') ok

/-- The log so far can be completed. -/
def CcaCut (c : Consts) (ch : PhyChannel) (b : Arr 128) (held : Bool) (l : List TxEvent) : Prop :=
  ∃ rest ok, CcaLog c ch b 1 held (l ++ rest) ok

theorem CcaInv.cut {c : Consts} {ch : PhyChannel} {b : Arr 128} {held : Bool} {s : CcaState}
    {l : List TxEvent} (h : CcaInv c ch b held s l) : CcaCut c ch b held l :=
  ⟨_, true, h.2.2.2 _ true (.sent h.2.1)⟩

theorem CcaInv.taking {c : Consts} {ch : PhyChannel} {b : Arr 128} {held : Bool} {s : CcaState}
    {l u : List TxEvent} (h : CcaInv c ch b held s l) (hu : u <+: taking s.held) :
    CcaCut c ch b held (l ++ u) := by
  obtain ⟨r, hr⟩ := hu
  refine ⟨r ++ [.attempt b ⟨ch, true⟩, .result true], true, ?_⟩
  have := h.2.2.2 _ true (.sent h.2.1)
  rw [← hr] at this
  simpa using this

theorem ccaRound_triple (c : Consts) (hc : c.maxBe ≤ 31 ∧ c.minBe < 65535) (ch : PhyChannel) (b : Arr 128)
    (held : Bool) (s : CcaState) :
    Triple txEvent (CcaInv c ch b held s) (ccaRound c ch b s)
      (fun r l => match r with
        | .inl s' => CcaInv c ch b held s' l
        | .inr a => CcaLog c ch b 1 held l a.1 ∧ a.2 = a.1) (CcaCut c ch b held) := by
  rw [ccaRound]
  by_cases hlt : s.i < c.maxCsmaBackoffs + 1
  swap
  · exact Triple.false fun l hl => hlt (by have := hl.2.1; omega)
  rw [if_pos hlt]
  refine Triple.bind (R := fun _ l => ∃ l0, CcaInv c ch b held s l0 ∧ l = l0 ++ taking s.held) ?_ ?_
  · refine (acquireLock_traces s.held).triple ?_ ?_
    · rintro l u hl ⟨hu, -⟩
      exact hl.taking hu
    · rintro l u a hl ⟨hu, h2⟩
      exact ⟨l, hl, by rw [h2 a rfl]⟩
  intro _
  have full : ∀ l0, CcaInv c ch b held s l0 → CcaCut c ch b held (l0 ++ taking s.held) :=
    fun l0 h0 => h0.taking ⟨[], by simp⟩
  have att : ∀ l0, CcaInv c ch b held s l0 →
      CcaCut c ch b held (l0 ++ taking s.held ++ [.attempt b ⟨ch, true⟩]) := by
    intro l0 h0
    refine ⟨[.result true], true, ?_⟩
    have := h0.2.2.2 _ true (.sent h0.2.1)
    simpa using this
  -- after a failed attempt
  have failedCut : ∀ l0 u, CcaInv c ch b held s l0 → u <+: [.result false, .unlocked] →
      CcaCut c ch b held (l0 ++ taking s.held ++ [.attempt b ⟨ch, true⟩] ++ u) := by
    rintro l0 u h0 ⟨r, hr⟩
    by_cases hlast : s.i = c.maxCsmaBackoffs
    · refine ⟨r, false, ?_⟩
      have := h0.2.2.2 (taking s.held ++ [.attempt b ⟨ch, true⟩, .result false, .unlocked]) false
        (by rw [hlast]; exact .failed)
      rw [← hr] at this
      simpa using this
    · have hi : s.i < c.maxCsmaBackoffs := by have := h0.2.1; omega
      have := h0.2.2.2 _ true (.again (held := s.held) hi (r := 0) (interleave_pair _ _)
        (.sent (held := false) (by omega)))
      rw [← hr] at this
      refine ⟨r ++ ([.random 0, .pause (backoffPause c s.i 0)] ++ [.report (.ccaBackoff s.i)] ++
        (taking false ++ [.attempt b ⟨ch, true⟩, .result true])), true, ?_⟩
      simpa using this
  refine Triple.bind (R := fun (r : Bool) l => ∃ l0, CcaInv c ch b held s l0 ∧
    l = l0 ++ taking s.held ++ [.attempt b ⟨ch, true⟩] ++ [.result r]) (Triple.await ?_) ?_
  · rintro l ⟨l0, h0, rfl⟩
    exact ⟨full l0 h0, att l0 h0, fun r => ⟨l0, h0, rfl⟩⟩
  intro r
  cases r with
  | true =>
    refine Triple.pure ?_
    rintro l ⟨l0, h0, rfl⟩
    have := h0.2.2.2 _ true (.sent h0.2.1)
    have e : CcaLog c ch b 1 held
        (l0 ++ taking s.held ++ [.attempt b ⟨ch, true⟩] ++ [.result true]) true := by
      simpa using this
    exact ⟨⟨e, rfl⟩, [], true, by simpa using e⟩
  | false =>
    refine Triple.bind (R := fun _ l => ∃ l0, CcaInv c ch b held s l0 ∧
      l = l0 ++ taking s.held ++ [.attempt b ⟨ch, true⟩] ++ [.result false, .unlocked])
      (Triple.await ?_) ?_
    · rintro l ⟨l0, h0, rfl⟩
      refine ⟨failedCut l0 _ h0 ⟨[_], rfl⟩, ?_, fun r => ⟨l0, h0, by simp [txEvent]⟩⟩
      have := failedCut l0 [.result false, .unlocked] h0 ⟨[], rfl⟩
      simpa [txEvent] using this
    intro _
    by_cases hlast : s.i = c.maxCsmaBackoffs
    · rw [if_pos hlast]
      refine Triple.pure ?_
      rintro l ⟨l0, h0, rfl⟩
      have := h0.2.2.2 (taking s.held ++ [.attempt b ⟨ch, true⟩, .result false, .unlocked]) false
        (by rw [hlast]; exact .failed)
      have e : CcaLog c ch b 1 held
          (l0 ++ taking s.held ++ [.attempt b ⟨ch, true⟩] ++ [.result false, .unlocked]) false := by
        simpa using this
      exact ⟨⟨e, rfl⟩, [], false, by simpa using e⟩
    · rw [if_neg hlast]
      by_cases hbe : ∃ be, s.backoff = .exponential be ∧ be < 65535 ∧
          min (be + 1) c.maxBe = min (c.minBe + s.i) c.maxBe
      swap
      · exact Triple.false (by rintro l ⟨l0, h0, -⟩; exact hbe h0.2.2.1)
      obtain ⟨be, hb1, hb0, hb2⟩ := hbe
      rw [hb1]
      have next : ∀ l0 u1 r, CcaInv c ch b held s l0 →
          Interleave [.random r, .pause (backoffPause c s.i r)] [.report (.ccaBackoff s.i)] u1 →
          CcaInv c ch b held ⟨s.i + 1, .exponential (min (c.minBe + s.i) c.maxBe), false⟩
            (l0 ++ taking s.held ++ [.attempt b ⟨ch, true⟩] ++ [.result false, .unlocked] ++ u1) := by
        intro l0 u1 r h0 hi
        have hlt' : s.i < c.maxCsmaBackoffs := by have := h0.2.1; omega
        refine ⟨by show 1 ≤ s.i + 1; omega, hlt', ⟨_, rfl, by omega, by show min _ _ = min (c.minBe + (s.i + 1)) _; omega⟩, ?_⟩
        intro l' res hl'
        have := h0.2.2.2 _ res (.again (held := s.held) hlt' hi hl')
        simpa using this
      refine Triple.bind (R := fun bk l => ∃ l0 u1 r, CcaInv c ch b held s l0 ∧
        bk = .exponential (min (c.minBe + s.i) c.maxBe) ∧
        Interleave [.random r, .pause (backoffPause c s.i r)] [.report (.ccaBackoff s.i)] u1 ∧
        l = l0 ++ taking s.held ++ [.attempt b ⟨ch, true⟩] ++ [.result false, .unlocked] ++ u1)
        (Triple.join (performBackoff_traces c hc be s.i hb0 hb2) (report_traces _) ?_) ?_
      · rintro l u1 u2 u o1 o2 ⟨l0, h0, rfl⟩ ⟨⟨r, r1, e1⟩, k1⟩ ⟨⟨r2, e2⟩, k2⟩ hi
        have hi2 := interleave_prefix (r1 := r1) (r2 := r2) hi
        rw [e1, e2] at hi2
        refine ⟨?_, ?_⟩
        · obtain ⟨rest, res, hcut⟩ := (next l0 _ r h0 hi2).cut
          exact ⟨r1 ++ r2 ++ rest, res, by simpa using hcut⟩
        · rintro bk a rfl rfl
          obtain ⟨q1, r', q2⟩ := k1 _ rfl
          have q3 := k2 _ rfl
          rw [q2, q3] at hi
          exact ⟨l0, u, r', h0, q1, hi, rfl⟩
      · intro bk
        refine Triple.pure ?_
        rintro l ⟨l0, u1, r, h0, rfl, hi, rfl⟩
        exact ⟨next l0 u1 r h0 hi, (next l0 u1 r h0 hi).cut⟩

theorem transmitCca_traces (c : Consts) (hc : c.maxBe ≤ 31 ∧ c.minBe < 65535) (hm : 1 ≤ c.maxCsmaBackoffs)
    (ch : PhyChannel) (b : Arr 128) (held : Bool) :
    Traces txEvent (transmitCca c ch b held (.newExponential c)) fun l o =>
      match o with
      | none => CcaCut c ch b held l
      | some a => CcaLog c ch b 1 held l a.1 ∧ a.2 = a.1 := by
  rw [Traces, transmitCca]
  refine Triple.pre (P := CcaInv c ch b held ⟨1, .newExponential c, held⟩) ?_ ?_
  · refine Triple.loop (I := CcaInv c ch b held) (fun s l h => h.cut) ?_
      (fun s => (ccaRound_triple c hc ch b held s).conseq (fun _ h => h)
        (fun r l h => by cases r <;> exact h) (fun _ h => h))
    rintro ⟨res, h⟩ l ⟨hl, -⟩
    exact ⟨[], res, by simpa using hl⟩
  · rintro l rfl
    exact ⟨Nat.le_refl 1, hm, ⟨c.minBe, rfl, hc.2, rfl⟩, fun l' res h => by simpa using h⟩


theorem interleave_21 {E : Type} {a b c : E} {l : List E} (h : Interleave [a, b] [c] l) :
    l = [c, a, b] ∨ l = [a, c, b] ∨ l = [a, b, c] := by
  cases h with
  | right h =>
    cases h with | left h => cases h with | left h => cases h; exact Or.inl rfl
  | left h =>
    cases h with
    | right h => cases h with | left h => cases h; exact Or.inr (Or.inl rfl)
    | left h => cases h with | right h => cases h; exact Or.inr (Or.inr rfl)

/-- What a complete history of `transmit_cca` from the `i`-th attempt on looks like. -/
theorem CcaLog.facts {c : Consts} {ch : PhyChannel} {b : Arr 128} {i : Nat} {held : Bool}
    {l : List TxEvent} {res : Bool} (h : CcaLog c ch b i held l res) :
    ∃ n, i + n ≤ c.maxCsmaBackoffs ∧ (res = false → i + n = c.maxCsmaBackoffs) ∧
      attempts l = List.replicate (n + 1) (b, ⟨ch, true⟩) ∧
      results l = List.replicate n false ++ [res] ∧
      reports l = (List.range' i n).map .ccaBackoff ∧
      (randoms l).length = n ∧
      pauses l = (randoms l).mapIdx (fun j r => backoffPause c (i + j) r) ∧
      l.getLast? = some (if res then .result true else .unlocked) ∧
      holding held l = res := by
  induction h with
  | @sent i held hi =>
    exact ⟨0, by omega, by simp, by cases held <;> simp [taking, attempts, results, reports,
      randoms, pauses, holding]⟩
  | @failed held =>
    exact ⟨0, by omega, by simp, by cases held <;> simp [taking, attempts, results, reports,
      randoms, pauses, holding]⟩
  | @again i held r l l' res hi hl _ ih =>
    obtain ⟨n, h1, h2, h3, h4, h5, h6, h7, h8, h9⟩ := ih
    refine ⟨n + 1, by omega, fun e => by have := h2 e; omega, ?_⟩
    have e : pauses (.random r :: .pause (backoffPause c i r) :: l') =
        (randoms (.random r :: l')).mapIdx (fun j r => backoffPause c (i + j) r) := by
      simp only [pauses, randoms, List.filterMap_cons, List.mapIdx_cons] at h7 ⊢
      rw [h7]
      congr 2
      funext j r
      rw [Nat.add_assoc, Nat.add_comm 1 j]
    simp only [pauses, randoms, List.filterMap_cons] at e
    have hlast : ∀ m : List TxEvent, (m ++ l').getLast? = l'.getLast? := by
      intro m
      rw [List.getLast?_append, h8]
      rfl
    refine ⟨?_, ?_, ?_, ?_, ?_, by rw [hlast, h8], ?_⟩
    all_goals
      rcases interleave_21 hl with rfl | rfl | rfl <;> cases held <;>
      simp_all [taking, attempts, results, reports, randoms, pauses, List.replicate_succ,
        List.range'_succ, holding]


theorem reports_append (l m : List TxEvent) : reports (l ++ m) = reports l ++ reports m :=
  List.filterMap_append ..
theorem attempts_append (l m : List TxEvent) : attempts (l ++ m) = attempts l ++ attempts m :=
  List.filterMap_append ..
theorem results_append (l m : List TxEvent) : results (l ++ m) = results l ++ results m :=
  List.filterMap_append ..
theorem randoms_append (l m : List TxEvent) : randoms (l ++ m) = randoms l ++ randoms m :=
  List.filterMap_append ..
theorem pauses_append (l m : List TxEvent) : pauses (l ++ m) = pauses l ++ pauses m :=
  List.filterMap_append ..
theorem heards_append (l m : List TxEvent) : heards (l ++ m) = heards l ++ heards m :=
  List.filterMap_append ..
theorem fetches_append (l m : List TxEvent) : fetches (l ++ m) = fetches l ++ fetches m :=
  List.filterMap_append ..

/-- Whatever happens, the events of `transmit_cca` are the beginning of a complete history, and
the complete history if it returned. -/
theorem cca_exec (c : Consts) (hc : c.maxBe ≤ 31 ∧ c.minBe < 65535) (hm : 1 ≤ c.maxCsmaBackoffs)
    (ch : PhyChannel) (b : Arr 128) (held : Bool) {t : List (Ev CallAns)} {o : Fin (Bool × Bool)}
    (he : Exec (transmitCca c ch b held (.newExponential c)) t o) :
    o ≠ .panicked ∧ ∃ rest res, CcaLog c ch b 1 held (t.filterMap txEvent ++ rest) res ∧
      ∀ r h, o = .done (r, h) → rest = [] ∧ r = res ∧ h = res := by
  have := (transmitCca_traces c hc hm ch b held).exec he
  cases o with
  | cut => obtain ⟨rest, res, h⟩ := this; exact ⟨by simp, rest, res, h, by simp⟩
  | pending => obtain ⟨rest, res, h⟩ := this; exact ⟨by simp, rest, res, h, by simp⟩
  | done a =>
    refine ⟨by simp, [], a.1, by simpa using this.1, ?_⟩
    rintro r h ⟨⟩
    exact ⟨rfl, rfl, this.2⟩
  | panicked => exact this.elim

/-- **C46**.  At every moment of every execution of `transmit_cca`, whatever the radio, the timer,
the random numbers, the mutex and the upper layer do: it has not panicked; it has transmitted at
most `MAC_MAX_CSMA_BACKOFFS` times, always the given frame on the given channel and with CCA; it has
reported the backoffs 1, 2, ... in order.  If it returned `Ok` then the last transmission succeeded
(all others failed), that was the last thing that happened and the task holds the radio.  If it
returned an error then `MAC_MAX_CSMA_BACKOFFS` transmissions were made, all failed, each but the
last was reported, and the task has released the radio. -/
theorem C46_transmit_cca (c : Consts) (hc : c.maxBe ≤ 31 ∧ c.minBe < 65535) (hm : 1 ≤ c.maxCsmaBackoffs)
    (ch : PhyChannel) (b : Arr 128) (held : Bool) {t : List (Ev CallAns)} {o : Fin (Bool × Bool)}
    (he : Exec (transmitCca c ch b held (.newExponential c)) t o) :
    o ≠ .panicked ∧
    (attempts (t.filterMap txEvent)).length ≤ c.maxCsmaBackoffs ∧
    (∀ x ∈ attempts (t.filterMap txEvent), x = (b, ⟨ch, true⟩)) ∧
    reports (t.filterMap txEvent) <+: (List.range' 1 (c.maxCsmaBackoffs - 1)).map .ccaBackoff ∧
    ∀ res h, o = .done (res, h) → h = res ∧ holding held (t.filterMap txEvent) = res ∧
      if res = true then
        (∃ n, results (t.filterMap txEvent) = List.replicate n false ++ [true] ∧
          reports (t.filterMap txEvent) = (List.range' 1 n).map .ccaBackoff) ∧
        (t.filterMap txEvent).getLast? = some (.result true)
      else
        results (t.filterMap txEvent) = List.replicate c.maxCsmaBackoffs false ∧
        reports (t.filterMap txEvent) =
          (List.range' 1 (c.maxCsmaBackoffs - 1)).map .ccaBackoff := by
  obtain ⟨h0, rest, res, hlog, hdone⟩ := cca_exec c hc hm ch b held he
  obtain ⟨n, h1, h2, h3, h4, h5, h6, h7, h8, h9⟩ := CcaLog.facts hlog
  have hpre : reports (t.filterMap txEvent) <+: (List.range' 1 n).map .ccaBackoff :=
    ⟨reports rest, by rw [← reports_append, h5]⟩
  have hatt : attempts (t.filterMap txEvent) <+: List.replicate (n + 1) (b, ⟨ch, true⟩) :=
    ⟨attempts rest, by rw [← attempts_append, h3]⟩
  refine ⟨h0, ?_, ?_, ?_, ?_⟩
  · have := hatt.length_le
    rw [List.length_replicate] at this
    omega
  · intro x hx
    exact List.eq_of_mem_replicate (hatt.subset hx)
  · refine hpre.trans ⟨(List.range' (1 + n) (c.maxCsmaBackoffs - 1 - n)).map .ccaBackoff, ?_⟩
    rw [← List.map_append, List.range'_append_1]
    congr 2
    omega
  · rintro r h rfl
    obtain ⟨rfl, rfl, rfl⟩ := hdone r h rfl
    rw [List.append_nil] at *
    refine ⟨rfl, h9, ?_⟩
    cases h with
    | true => exact ⟨⟨n, h4, h5⟩, h8⟩
    | false =>
      have hn := h2 rfl
      refine ⟨?_, ?_⟩
      · rw [h4, ← hn, Nat.add_comm, List.replicate_succ']
      · rw [h5]; congr 2; omega

/-- With no backoffs configured `transmit_cca` returns `Ok` without having transmitted anything. -/
theorem C46_zero (c : Consts) (hm : c.maxCsmaBackoffs = 0) (ch : PhyChannel) (b : Arr 128)
    (held : Bool) {t : List (Ev CallAns)} {o : Fin (Bool × Bool)}
    (he : Exec (transmitCca c ch b held (.newExponential c)) t o) :
    t = [] ∧ o ≠ .panicked ∧ ∀ r h, o = .done (r, h) → r = true := by
  have key : Triple some (fun l => l = []) (transmitCca c ch b held (.newExponential c))
      (fun a l => l = [] ∧ a.1 = true) (fun l => l = []) := by
    refine Triple.pre (P := fun l => (1 : Nat) = 1 ∧ l = []) ?_ (fun l hl => ⟨rfl, hl⟩)
    refine Triple.loop (s := (⟨1, .newExponential c, held⟩ : CcaState))
      (I := fun s l => s.i = 1 ∧ l = []) (fun _ _ h => h.2) (fun _ _ h => h.1) ?_
    intro s
    by_cases hs : s.i = 1
    · rw [ccaRound, if_neg (by rw [hs, hm]; decide)]
      exact Triple.pure fun l hl => ⟨⟨hl.2, rfl⟩, hl.2⟩
    · exact Triple.false fun l hl => hs hl.1
  have := key [] t o rfl he
  simp only [List.filterMap_some, List.nil_append] at this
  cases o with
  | cut => exact ⟨this, by simp, by simp⟩
  | pending => exact ⟨this, by simp, by simp⟩
  | done a =>
    refine ⟨this.1, by simp, ?_⟩
    rintro r h ⟨⟩
    exact this.2
  | panicked => exact this.elim

/-! ### A radio that is busy twice -/

/-- Everything answers at once; the random number is 5; the third transmission succeeds.  The state
counts the transmissions. -/
def busyTwice : Prog.World CallAns Nat where
  start e n := match e with
    | (_, .radioTransmit _ _) => (some (decide (n = 2) : Bool), n + 1)
    | (_, .driverTransmit) => (none, n)
    | (_, .tryLock) => (some true, n)
    | (_, .radioReceive _) => (none, n)
    | (_, .rngNext) => (some 5#32, n)
    | (_, .driverReceived _) => (some (), n)
    | (_, .driverError _) => (some (), n)
    | (_, .yieldNow) => (some (), n)
    | (_, .lock) => (some (), n)
    | (_, .unlock) => (some (), n)
    | (_, .sendSignal) => (some (), n)
    | (_, .recvSignal) => (some (), n)
    | (_, .rngLock) => (some (), n)
    | (_, .rngUnlock) => (some (), n)
    | (_, .delay _) => (some (), n)
    | (_, .radioEnable) => (some (), n)
  poll _ n := (none, n)

/-- A frame buffer. -/
def someBuffer : Arr 128 := ⟨List.replicate 128 7, by simp⟩

/-- The hypotheses of C46 are met by an execution in which two attempts fail. -/
example : ∃ t, Exec (transmitCca {} .c26 someBuffer false (.newExponential {})) t
    (.done (true, true)) ∧
    t.filterMap txEvent = [.locked, .attempt someBuffer ⟨.c26, true⟩, .result false, .unlocked,
      .random 5, .pause 320, .report (.ccaBackoff 1),
      .locked, .attempt someBuffer ⟨.c26, true⟩, .result false, .unlocked,
      .random 5, .pause 320, .report (.ccaBackoff 2),
      .locked, .attempt someBuffer ⟨.c26, true⟩, .result true] := by
  obtain ⟨t, h1, h2⟩ := poll_outcome busyTwice 20
    (transmitCca {} .c26 someBuffer false (.newExponential {})) 0 []
  refine ⟨t, h2, ?_⟩
  rw [List.nil_append] at h1
  rw [← h1]
  rfl

/-! ## C47 -/

/-- The value of a pause, when the microseconds fit in 32 bits. -/
theorem backoffPause_value (c : Consts) (hu : 0 ≤ c.unitBackoff.us.toInt)
    (hfit : c.unitBackoff.us.toInt * (2 ^ c.maxBe - 1 : Nat) < 2 ^ 32) (k : Nat) (r : BitVec 32) :
    ((backoffPause c k r).toNat : Int) =
      c.unitBackoff.us.toInt * (r.toNat % 2 ^ min (c.minBe + k) c.maxBe : Nat) ∧
    c.unitBackoff.us.toInt * (r.toNat % 2 ^ min (c.minBe + k) c.maxBe : Nat) ≤
      c.unitBackoff.us.toInt * (2 ^ c.maxBe - 1 : Nat) := by
  have hm : r.toNat % 2 ^ min (c.minBe + k) c.maxBe ≤ 2 ^ c.maxBe - 1 := by
    have h1 : r.toNat % 2 ^ min (c.minBe + k) c.maxBe < 2 ^ min (c.minBe + k) c.maxBe :=
      Nat.mod_lt _ (Nat.two_pow_pos _)
    have h2 : 2 ^ min (c.minBe + k) c.maxBe ≤ 2 ^ c.maxBe :=
      Nat.pow_le_pow_right (by omega) (Nat.min_le_right _ _)
    omega
  have hle : c.unitBackoff.us.toInt * (r.toNat % 2 ^ min (c.minBe + k) c.maxBe : Nat) ≤
      c.unitBackoff.us.toInt * (2 ^ c.maxBe - 1 : Nat) :=
    Int.mul_le_mul_of_nonneg_left (Int.ofNat_le.2 hm) hu
  refine ⟨?_, hle⟩
  rw [backoffPause, BitVec.toNat_ofInt]
  have h0 : 0 ≤ c.unitBackoff.us.toInt * (r.toNat % 2 ^ min (c.minBe + k) c.maxBe : Nat) :=
    Int.mul_nonneg hu (Int.natCast_nonneg _)
  rw [Int.emod_eq_of_lt h0 (by
    have : ((2 ^ 32 : Nat) : Int) = 2 ^ 32 := by norm_num
    omega)]
  omega

/-- **C47**.  Whatever the random numbers are, the `k`-th pause of a `transmit_cca` is the `k`-th
random number reduced to `0 .. 2^BE - 1` times the unit backoff period, where
`BE = min(MIN_BE + k, MAX_BE)`. -/
theorem C47_pauses (c : Consts) (hc : c.maxBe ≤ 31 ∧ c.minBe < 65535) (hm : 1 ≤ c.maxCsmaBackoffs)
    (ch : PhyChannel) (b : Arr 128) (held : Bool) {t : List (Ev CallAns)} {o : Fin (Bool × Bool)}
    (he : Exec (transmitCca c ch b held (.newExponential c)) t o) :
    ∃ rs, randoms (t.filterMap txEvent) <+: rs ∧
      pauses (t.filterMap txEvent) <+: rs.mapIdx (fun j r => backoffPause c (j + 1) r) := by
  obtain ⟨-, rest, res, hlog, -⟩ := cca_exec c hc hm ch b held he
  obtain ⟨n, -, -, -, -, -, -, h7, -⟩ := CcaLog.facts hlog
  refine ⟨_, ⟨randoms rest, (randoms_append _ _).symm⟩, pauses rest, ?_⟩
  rw [← pauses_append, h7]
  congr 1
  funext j r
  rw [Nat.add_comm]

/-- **C47**, the bound: if the longest backoff fits in 32 bits of microseconds, every pause is a
multiple `m` of the unit with `m < 2^BE`, at most `unit * (2^MAX_BE - 1)`. -/
theorem C47_bound (c : Consts) (hc : c.maxBe ≤ 31 ∧ c.minBe < 65535) (hm : 1 ≤ c.maxCsmaBackoffs)
    (hu : 0 ≤ c.unitBackoff.us.toInt)
    (hfit : c.unitBackoff.us.toInt * (2 ^ c.maxBe - 1 : Nat) < 2 ^ 32)
    (ch : PhyChannel) (b : Arr 128) (held : Bool) {t : List (Ev CallAns)} {o : Fin (Bool × Bool)}
    (he : Exec (transmitCca c ch b held (.newExponential c)) t o) (k : Nat) (us : BitVec 32)
    (hus : (pauses (t.filterMap txEvent))[k]? = some us) :
    ∃ m : Nat, m < 2 ^ min (c.minBe + (k + 1)) c.maxBe ∧
      (us.toNat : Int) = c.unitBackoff.us.toInt * m ∧
      (us.toNat : Int) ≤ c.unitBackoff.us.toInt * (2 ^ c.maxBe - 1 : Nat) := by
  obtain ⟨rs, -, rest, hrest⟩ := C47_pauses c hc hm ch b held he
  have : (rs.mapIdx (fun j r => backoffPause c (j + 1) r))[k]? = some us := by
    rw [← hrest, List.getElem?_append_left, hus]
    exact (List.getElem?_eq_some_iff.1 hus).1
  rw [List.getElem?_mapIdx, Option.map_eq_some_iff] at this
  obtain ⟨r, -, rfl⟩ := this
  obtain ⟨h1, h2⟩ := backoffPause_value c hu hfit (k + 1) r
  exact ⟨_, Nat.mod_lt _ (Nat.two_pow_pos _), h1, by rw [h1]; exact h2⟩

/-- The default constants are within the bounds. -/
example : ({} : Consts).maxBe ≤ 31 ∧ 1 ≤ ({} : Consts).maxCsmaBackoffs ∧
    0 ≤ ({} : Consts).unitBackoff.us.toInt ∧
    ({} : Consts).unitBackoff.us.toInt * (2 ^ ({} : Consts).maxBe - 1 : Nat) < 2 ^ 32 := by
  decide

/-- Beyond them the microseconds are truncated: with a backoff exponent of 27 a backoff of 2^26
periods is no pause at all. -/
theorem C47_truncated :
    backoffPause { minBe := 26, maxBe := 27 } 1 (BitVec.ofNat 32 (2 ^ 26)) = 0 := by decide

/-- And a maximal backoff exponent of 32 or more makes the first backoff that reaches it panic. -/
theorem C47_shift_panics (c : Consts) (be : Nat) (h : 32 ≤ min (be + 1) c.maxBe) :
    Exec (performBackoff c (.exponential be)) [] .panicked := by
  have : shl1 (min (be + 1) c.maxBe) = .panic := by rw [shl1, if_neg (by omega)]
  rw [performBackoff]
  by_cases hb : be + 1 < 65536
  · simp only [incr16, if_pos hb, Out.bind, this]
    exact .bindPanic .panic
  · simp only [incr16, if_neg hb, Out.bind]
    exact .bindPanic .panic

/-- And so does the first backoff with a minimal backoff exponent of 65535, the largest value of its
type, whatever the maximal one. -/
theorem C47_increment_panics (c : Consts) (be : Nat) (h : 65535 ≤ be) :
    Exec (performBackoff c (.exponential be)) [] .panicked := by
  rw [performBackoff]
  simp only [incr16, if_neg (show ¬ be + 1 < 65536 by omega), Out.bind]
  exact .bindPanic .panic

example : Exec (performBackoff { maxBe := 40 } (.exponential 31)) [] .panicked :=
  C47_shift_panics _ _ (by decide)

end Dot15d4.Props
