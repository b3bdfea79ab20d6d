import Verif.Spec.CsmaCa
import Verif.Props.Backoff

/-!
# C92: channel access is the standard's unslotted CSMA-CA

`transmit_cca` (dot15d4/src/csma/transmission.rs) against IEEE 802.15.4, 6.2.5.1.
-/

namespace Dot15d4.Props
open Dot15d4 Spec Csma Prog

/-- The full property: a transmission that has ended went through a run of the standard's algorithm
with the device's constants, and ended as that did. -/
def C92_statement : Prop :=
  ∀ (c : Consts), c.maxBe ≤ 31 ∧ c.minBe < 65535 → 1 ≤ c.maxCsmaBackoffs →
  0 < c.unitBackoff.us.toInt → c.unitBackoff.us.toInt * (2 ^ c.maxBe - 1 : Nat) < 2 ^ 32 →
  ∀ (ch : PhyChannel) (b : Arr 128) (held : Bool) (t : List (Ev CallAns)) (ok held' : Bool),
  Exec (transmitCca c ch b held (.newExponential c)) t (.done (ok, held')) →
  StdCsma c.maxBe c.maxCsmaBackoffs c.unitBackoff.us.toNat 0 c.minBe
    ((t.filterMap txEvent).filterMap csmaStep) ok

/-- The exponent after `k` busy assessments. -/
theorem exponent_step (c : Consts) (k : Nat) :
    min (min (c.minBe + k) c.maxBe + 1) c.maxBe = min (c.minBe + (k + 1)) c.maxBe := by omega

theorem unit_toNat (c : Consts) (hu : 0 < c.unitBackoff.us.toInt) :
    (c.unitBackoff.us.toNat : Int) = c.unitBackoff.us.toInt := by
  rw [BitVec.toInt_eq_toNat_cond] at hu ⊢
  split <;> rename_i h
  · rfl
  · have := c.unitBackoff.us.isLt; rw [if_neg h] at hu; omega

/-- The `k`-th pause is a number of periods the standard allows after `k` busy assessments. -/
theorem pause_periods (c : Consts) (hu : 0 < c.unitBackoff.us.toInt)
    (hfit : c.unitBackoff.us.toInt * (2 ^ c.maxBe - 1 : Nat) < 2 ^ 32) (k : Nat) (r : BitVec 32) :
    ∃ p, p ≤ 2 ^ min (c.minBe + k) c.maxBe - 1 ∧
      (backoffPause c k r).toNat = c.unitBackoff.us.toNat * p := by
  refine ⟨r.toNat % 2 ^ min (c.minBe + k) c.maxBe, ?_, ?_⟩
  · have := Nat.mod_lt r.toNat (Nat.two_pow_pos (min (c.minBe + k) c.maxBe)); omega
  · have h := (backoffPause_value c (by omega) hfit k r).1
    rw [← unit_toNat c hu] at h
    exact_mod_cast h

theorem CcaLog.std {c : Consts} (hu : 0 < c.unitBackoff.us.toInt)
    (hfit : c.unitBackoff.us.toInt * (2 ^ c.maxBe - 1 : Nat) < 2 ^ 32) {ch : PhyChannel}
    {b : Arr 128} {i : Nat} {held : Bool} {l : List TxEvent} {ok : Bool}
    (h : CcaLog c ch b i held l ok) : ∀ {k be p : Nat}, i = k + 1 → p ≤ 2 ^ be - 1 →
    min (be + 1) c.maxBe = min (c.minBe + i) c.maxBe →
    StdCsma c.maxBe (c.maxCsmaBackoffs - 1) c.unitBackoff.us.toNat k be
      (.wait (c.unitBackoff.us.toNat * p) :: l.filterMap csmaStep) ok := by
  induction h with
  | @sent i held hi =>
    intro k be p hk hp _
    cases held <;> exact .success hp
  | @failed held =>
    intro k be p hk hp _
    cases held <;> exact .failure hp (by omega)
  | @again i held r l l' ok hi hl _ ih =>
    intro k be p hk hp hb
    obtain ⟨q, hq1, hq2⟩ := pause_periods c hu hfit i r
    have h1 := ih (k := k + 1) (be := min (be + 1) c.maxBe) (p := q) (by omega)
      (by rw [hb]; exact hq1) (by rw [hb]; omega)
    have h2 := StdCsma.again (maxBe := c.maxBe) (maxBackoffs := c.maxCsmaBackoffs - 1)
      (unit := c.unitBackoff.us.toNat) (nb := k) hp (by omega) h1
    rw [← hq2] at h2
    rcases interleave_21 hl with rfl | rfl | rfl <;> cases held <;>
      simpa [taking, csmaStep, List.filterMap_cons] using h2

/-- **C92**, as far as it is true: had the device waited first, for whatever time the standard
allows, then it went through a run of the standard's algorithm, with one backoff less, and ended as
that does. -/
theorem C92_standard_partial (c : Consts) (hc : c.maxBe ≤ 31 ∧ c.minBe < 65535)
    (hm : 1 ≤ c.maxCsmaBackoffs) (hu : 0 < c.unitBackoff.us.toInt)
    (hfit : c.unitBackoff.us.toInt * (2 ^ c.maxBe - 1 : Nat) < 2 ^ 32)
    (ch : PhyChannel) (b : Arr 128) (held : Bool) {t : List (Ev CallAns)} {ok held' : Bool}
    (he : Exec (transmitCca c ch b held (.newExponential c)) t (.done (ok, held')))
    (p : Nat) (hp : p ≤ 2 ^ c.minBe - 1) :
    StdCsma c.maxBe (c.maxCsmaBackoffs - 1) c.unitBackoff.us.toNat 0 c.minBe
      (.wait (c.unitBackoff.us.toNat * p) :: (t.filterMap txEvent).filterMap csmaStep) ok := by
  obtain ⟨-, rest, res, hlog, hdone⟩ := cca_exec c hc hm ch b held he
  obtain ⟨rfl, rfl, -⟩ := hdone _ _ rfl
  rw [List.append_nil] at hlog
  exact CcaLog.std hu hfit hlog rfl hp rfl

/-- In the standard a failed channel access takes `macMaxCsmaBackoffs + 1` assessments. -/
theorem _root_.Dot15d4.Spec.StdCsma.failed_count {maxBe n unit nb be : Nat} {l : List CsmaStep} {ok : Bool}
    (h : StdCsma maxBe n unit nb be l ok) (hok : ok = false) (hnb : nb ≤ n) :
    (l.filter (fun s => decide (s = .assess false))).length = n + 1 - nb := by
  induction h with
  | success => cases hok
  | failure hp hn => simp; omega
  | again hp hn _ ih => have := ih hok hn; simp [this]; omega

/-- **C92**, both differences: no transmission whatsoever is a run of the standard's algorithm, as
the device does not wait first; and a device that gives up has assessed the channel once less than
the standard has it. -/
theorem C92_differences (c : Consts) (hc : c.maxBe ≤ 31 ∧ c.minBe < 65535)
    (hm : 1 ≤ c.maxCsmaBackoffs) (ch : PhyChannel) (b : Arr 128) (held : Bool)
    {t : List (Ev CallAns)} {ok held' : Bool}
    (he : Exec (transmitCca c ch b held (.newExponential c)) t (.done (ok, held'))) :
    ¬ StdCsma c.maxBe c.maxCsmaBackoffs c.unitBackoff.us.toNat 0 c.minBe
      ((t.filterMap txEvent).filterMap csmaStep) ok ∧
    (ok = false → ∀ l, StdCsma c.maxBe c.maxCsmaBackoffs c.unitBackoff.us.toNat 0 c.minBe l false →
      (l.filter (fun s => decide (s = .assess false))).length =
        (results (t.filterMap txEvent)).length + 1) := by
  obtain ⟨-, rest, res, hlog, hdone⟩ := cca_exec c hc hm ch b held he
  obtain ⟨rfl, rfl, -⟩ := hdone _ _ rfl
  rw [List.append_nil] at hlog
  constructor
  · have hs : ∃ x m, (t.filterMap txEvent).filterMap csmaStep = .assess x :: m := by
      generalize t.filterMap txEvent = l at hlog
      generalize 1 = i at hlog
      cases hlog with
      | sent => cases held <;> exact ⟨_, _, rfl⟩
      | failed => cases held <;> exact ⟨_, _, rfl⟩
      | again => cases held <;> exact ⟨_, _, rfl⟩
    obtain ⟨x, m, hs⟩ := hs
    rw [hs]
    intro h
    cases h
  · rintro rfl l hl
    obtain ⟨n, h1, h2, h3, h4, -⟩ := CcaLog.facts hlog
    rw [hl.failed_count rfl (by omega), h4]
    simp
    have := h2 rfl
    omega

/-- The execution used below: the channel is busy twice and then clear. -/
theorem busyTwice_steps : ∃ t, Exec (transmitCca {} .c26 someBuffer false (.newExponential {})) t
      (.done (true, true)) ∧
    (t.filterMap txEvent).filterMap csmaStep =
      [.assess false, .wait 320, .assess false, .wait 320, .assess true] := by
  obtain ⟨t, h1, h2⟩ := poll_outcome busyTwice 20
    (transmitCca {} .c26 someBuffer false (.newExponential {})) 0 []
  rw [List.nil_append] at h1
  exact ⟨t, h2, by rw [← h1]; rfl⟩

theorem C92_false : ¬ C92_statement := by
  intro h
  obtain ⟨t, ht, -⟩ := busyTwice_steps
  exact (C92_differences {} (by decide) (by decide) _ _ _ ht).1
    (h {} (by decide) (by decide) (by decide) (by decide) _ _ _ t _ _ ht)

/-- Non-vacuity of `C92_standard_partial`. -/
example : ∃ t, Exec (transmitCca {} .c26 someBuffer false (.newExponential {})) t
      (.done (true, true)) ∧
    (t.filterMap txEvent).filterMap csmaStep =
      [.assess false, .wait 320, .assess false, .wait 320, .assess true] ∧
    StdCsma 8 15 320 0 0
      [.wait 0, .assess false, .wait 320, .assess false, .wait 320, .assess true] true := by
  obtain ⟨t, ht, hs⟩ := busyTwice_steps
  have := C92_standard_partial {} (by decide) (by decide) (by decide) (by decide) _ _ _ ht 0
    (by decide)
  rw [hs] at this
  exact ⟨t, ht, hs, this⟩

end Dot15d4.Props
