import Verif.Props.CsmaTransmit
import Mathlib.Data.Fintype.BigOperators
import Mathlib.Algebra.BigOperators.Ring.Finset
import Mathlib.Tactic.Ring

/-!
# C86: the backoff is random and uniform, but not before the first attempt
-/

namespace Dot15d4.Props
open Out Spec Csma

/-- What a random number generator can return: one of `2^32` words. -/
abbrev Word32 : Type := _root_.Fin (2 ^ 32)

/-- The backoff exponent of the `k`-th pause. -/
def backoffExponent (c : Consts) (k : Nat) : Nat := min (c.minBe + k) c.maxBe

/-- The words for which the `k`-th pause lasts `m` unit backoff periods. -/
def drawing (c : Consts) (k m : Nat) : Finset Word32 :=
  Finset.univ.filter fun r =>
    ((backoffPause c k (BitVec.ofFin r)).toNat : Int) = c.unitBackoff.us.toInt * m

theorem card_residues (be m : Nat) (hbe : be ≤ 32) (hm : m < 2 ^ be) :
    (Finset.univ.filter fun r : Word32 => r.val % 2 ^ be = m).card = 2 ^ (32 - be) := by
  have hsplit : 2 ^ be * 2 ^ (32 - be) = 2 ^ 32 := by rw [← Nat.pow_add]; congr 1; omega
  generalize hA : 2 ^ be = A at *
  generalize hB : 2 ^ (32 - be) = B at *
  have hA0 : 0 < A := by omega
  rw [← Finset.card_range B]
  refine Finset.card_nbij' (fun r => r.val / A)
    (fun q => ⟨(m + A * q) % 2 ^ 32, Nat.mod_lt _ (Nat.two_pow_pos _)⟩) ?_ ?_ ?_ ?_
  · intro r _
    simp only [Finset.coe_range, Set.mem_Iio]
    rw [Nat.div_lt_iff_lt_mul hA0, Nat.mul_comm, hsplit]
    exact r.isLt
  · intro q hq
    simp only [Finset.coe_range, Set.mem_Iio] at hq
    have h1 : m + A * q < 2 ^ 32 := by
      rw [← hsplit]
      calc m + A * q < A + A * q := by omega
        _ = A * (q + 1) := by ring
        _ ≤ A * B := Nat.mul_le_mul_left _ hq
    simp only [Finset.coe_filter, Finset.mem_univ, true_and, Set.mem_ofPred_eq]
    rw [Nat.mod_eq_of_lt h1, Nat.add_mul_mod_self_left, Nat.mod_eq_of_lt hm]
  · intro r hr
    simp only [Finset.coe_filter, Finset.mem_univ, true_and, Set.mem_ofPred_eq] at hr
    have h1 : m + A * (r.val / A) = r.val := by rw [← hr]; exact Nat.mod_add_div _ _
    apply _root_.Fin.ext
    simp only
    rw [h1]
    exact Nat.mod_eq_of_lt r.isLt
  · intro q hq
    simp only [Finset.coe_range, Set.mem_Iio] at hq
    have h1 : m + A * q < 2 ^ 32 := by
      rw [← hsplit]
      calc m + A * q < A + A * q := by omega
        _ = A * (q + 1) := by ring
        _ ≤ A * B := Nat.mul_le_mul_left _ hq
    simp only
    rw [Nat.mod_eq_of_lt h1, Nat.add_mul_div_left _ _ hA0, Nat.div_eq_of_lt hm, Nat.zero_add]

theorem drawing_eq (c : Consts) (hu : 0 < c.unitBackoff.us.toInt)
    (hfit : c.unitBackoff.us.toInt * (2 ^ c.maxBe - 1 : Nat) < 2 ^ 32) (k m : Nat) :
    drawing c k m = Finset.univ.filter fun r : Word32 => r.val % 2 ^ backoffExponent c k = m := by
  unfold drawing
  congr 1
  funext r
  rw [(backoffPause_value c (by omega) hfit k (BitVec.ofFin r)).1]
  simp only [backoffExponent, eq_iff_iff]
  constructor
  · intro h
    have := Int.eq_of_mul_eq_mul_left (by omega) h
    exact_mod_cast this
  · intro h
    rw [← h]; rfl

/-- **C86**, one backoff: of the `2^32` words the generator may return, equally many lead to each of
the `2^BE` possible numbers of periods. -/
theorem C86_uniform_partial (c : Consts) (hb : c.maxBe ≤ 31) (hu : 0 < c.unitBackoff.us.toInt)
    (hfit : c.unitBackoff.us.toInt * (2 ^ c.maxBe - 1 : Nat) < 2 ^ 32) (k m : Nat)
    (hm : m < 2 ^ backoffExponent c k) :
    (drawing c k m).card = 2 ^ (32 - backoffExponent c k) := by
  rw [drawing_eq c hu hfit, card_residues _ _ (by unfold backoffExponent; omega) hm]

/-- **C86**, all backoffs of a transmission: every sequence of numbers of periods that is possible at
all is equally likely, so the backoffs are independent. -/
theorem C86_sequences (c : Consts) (hb : c.maxBe ≤ 31) (hu : 0 < c.unitBackoff.us.toInt)
    (hfit : c.unitBackoff.us.toInt * (2 ^ c.maxBe - 1 : Nat) < 2 ^ 32) (n : Nat) (m : _root_.Fin n → Nat)
    (hm : ∀ j, m j < 2 ^ backoffExponent c (j + 1)) :
    (Finset.univ.filter fun w : _root_.Fin n → Word32 => ∀ j : _root_.Fin n,
      ((backoffPause c (j + 1) (BitVec.ofFin (w j))).toNat : Int) =
        c.unitBackoff.us.toInt * m j).card = ∏ j : _root_.Fin n, 2 ^ (32 - backoffExponent c (j + 1)) := by
  have e : (Finset.univ.filter fun w : _root_.Fin n → Word32 => ∀ j : _root_.Fin n,
      ((backoffPause c (j + 1) (BitVec.ofFin (w j))).toNat : Int) = c.unitBackoff.us.toInt * m j) =
      Fintype.piFinset fun j : _root_.Fin n => drawing c (j + 1) (m j) := by
    ext w
    simp [drawing]
  rw [e, Fintype.card_piFinset]
  exact Finset.prod_congr rfl fun j _ => C86_uniform_partial c hb hu hfit _ _ (hm j)

set_option linter.constructorNameAsVariable false in
/-- **C86**, two devices that back off at the same time, for the `k`-th time each, choose the same
pause with probability `2^-BE`. -/
theorem C86_collision (c : Consts) (hb : c.maxBe ≤ 31) (hu : 0 < c.unitBackoff.us.toInt)
    (hfit : c.unitBackoff.us.toInt * (2 ^ c.maxBe - 1 : Nat) < 2 ^ 32) (k : Nat) :
    (Finset.univ.filter fun w : Word32 × Word32 =>
      backoffPause c k (BitVec.ofFin w.1) = backoffPause c k (BitVec.ofFin w.2)).card *
      2 ^ backoffExponent c k = 2 ^ 64 := by
  have h1 : ∀ r : Word32, (Finset.univ.filter fun w : Word32 × Word32 =>
      backoffPause c k (BitVec.ofFin w.1) = backoffPause c k (BitVec.ofFin w.2) ∧ w.1 = r).card =
      2 ^ (32 - backoffExponent c k) := by
    intro r
    rw [← C86_uniform_partial c hb hu hfit k (r.val % 2 ^ backoffExponent c k)
      (Nat.mod_lt _ (Nat.two_pow_pos _))]
    refine Finset.card_nbij' (fun w => w.2) (fun s => (r, s)) ?_ ?_ ?_ ?_
    · rintro ⟨a, s⟩ h
      simp only [Finset.coe_filter, Finset.mem_univ, true_and, Set.mem_ofPred_eq] at h
      obtain ⟨h, rfl⟩ := h
      simp only [drawing, Finset.coe_filter, Finset.mem_univ, true_and, Set.mem_ofPred_eq]
      rw [← h]
      exact (backoffPause_value c (by omega) hfit k _).1
    · intro s h
      simp only [drawing, Finset.coe_filter, Finset.mem_univ, true_and, Set.mem_ofPred_eq] at h ⊢
      refine ⟨?_, trivial⟩
      apply BitVec.eq_of_toNat_eq
      have := (backoffPause_value c (by omega) hfit k (BitVec.ofFin r)).1
      rw [← Int.ofNat_inj]
      exact this.trans h.symm
    · rintro ⟨a, s⟩ h
      simp only [Finset.coe_filter, Finset.mem_univ, true_and, Set.mem_ofPred_eq] at h
      rw [h.2]
    · intro s _; rfl
  have hp : 2 ^ (32 - backoffExponent c k) * 2 ^ backoffExponent c k = 2 ^ 32 := by
    rw [← Nat.pow_add]; congr 1; unfold backoffExponent; omega
  rw [Finset.card_eq_sum_card_fiberwise (f := Prod.fst) (t := Finset.univ) (by simp)]
  simp only [Finset.filter_filter]
  rw [Finset.sum_congr rfl fun r _ => h1 r, Finset.sum_const, Finset.card_univ, Fintype.card_fin,
    Nat.nsmul_eq_mul, Nat.mul_assoc, hp, ← Nat.pow_add]

/-- Non-vacuity: the default constants, second backoff. -/
example : ({} : Consts).maxBe ≤ 31 ∧ 0 < ({} : Consts).unitBackoff.us.toInt ∧
    ({} : Consts).unitBackoff.us.toInt * (2 ^ ({} : Consts).maxBe - 1 : Nat) < 2 ^ 32 ∧
    backoffExponent {} 2 = 2 := by decide

/-! ## When the backoffs take place -/

/-- `i` more pauses than attempts so far; every attempt finds as many pauses as attempts before it. -/
def Paced : Int → List TxEvent → Prop
  | _, [] => True
  | i, .attempt _ _ :: l => i = 0 ∧ Paced (i - 1) l
  | i, .pause _ :: l => Paced (i + 1) l
  | i, _ :: l => Paced i l

theorem Paced.spec {l1 l2 : List TxEvent} {b : Arr 128} {cfg : TxConfig} : ∀ {i : Int},
    Paced i (l1 ++ .attempt b cfg :: l2) → i + (pauses l1).length = (attempts l1).length := by
  induction l1 with
  | nil => intro i h; simp [pauses, attempts]; exact h.1
  | cons e l1 ih =>
    intro i h
    cases e with
    | attempt b' cfg' =>
      have := ih h.2
      simp only [pauses, attempts, List.filterMap_cons, List.length_cons] at this ⊢
      push_cast
      omega
    | pause us =>
      have := ih (i := i + 1) h
      simp only [pauses, attempts, List.filterMap_cons, List.length_cons] at this ⊢
      push_cast
      omega
    | _ => exact ih (i := i) h

theorem CcaLog.paced {c : Consts} {ch : PhyChannel} {b : Arr 128} {i : Nat} {held : Bool}
    {l : List TxEvent} {res : Bool} (h : CcaLog c ch b i held l res) : Paced 0 l := by
  induction h with
  | @sent i held hi => cases held <;> simp [taking, Paced]
  | @failed held => cases held <;> simp [taking, Paced]
  | @again i held r l l' res hi hl _ ih =>
    rcases interleave_21 hl with rfl | rfl | rfl <;> cases held <;> simpa [taking, Paced] using ih

theorem Paced.prefix {l l' : List TxEvent} : ∀ {i : Int}, Paced i (l ++ l') → Paced i l := by
  induction l with
  | nil => intro i _; trivial
  | cons e l ih =>
    intro i h
    cases e with
    | attempt b' cfg' => exact ⟨h.1, ih h.2⟩
    | pause us => exact ih (i := i + 1) h
    | _ => exact ih (i := i) h

/-- **C86**: between two attempts the device pauses exactly once, and before the first not at all. -/
theorem C86_pauses (c : Consts) (hc : c.maxBe ≤ 31 ∧ c.minBe < 65535) (hm : 1 ≤ c.maxCsmaBackoffs)
    (ch : PhyChannel) (b : Arr 128) (held : Bool) {t : List (Ev CallAns)} {o : Fin (Bool × Bool)}
    (he : Exec (transmitCca c ch b held (.newExponential c)) t o) {l1 l2 : List TxEvent}
    {b' : Arr 128} {cfg : TxConfig} (h : t.filterMap txEvent = l1 ++ .attempt b' cfg :: l2) :
    (pauses l1).length = (attempts l1).length := by
  obtain ⟨-, rest, res, hlog, -⟩ := cca_exec c hc hm ch b held he
  have := (CcaLog.paced hlog).prefix
  rw [h] at this
  have := this.spec
  omega

/-- Non-vacuity for `C86_pauses`: the channel is busy twice, and the third attempt finds two pauses and
two attempts before it. -/
example : ∃ t o l1 l2, Exec (transmitCca {} .c26 someBuffer false (.newExponential {})) t o ∧
    t.filterMap txEvent = l1 ++ .attempt someBuffer ⟨.c26, true⟩ :: l2 ∧
    (pauses l1).length = 2 ∧ (attempts l1).length = 2 := by
  obtain ⟨t, h1, h2⟩ := poll_outcome busyTwice 20
    (transmitCca {} .c26 someBuffer false (.newExponential {})) 0 []
  rw [List.nil_append] at h1
  exact ⟨t, _, [.locked, .attempt someBuffer ⟨.c26, true⟩, .result false, .unlocked, .random 5,
    .pause 320, .report (.ccaBackoff 1), .locked, .attempt someBuffer ⟨.c26, true⟩, .result false,
    .unlocked, .random 5, .pause 320, .report (.ccaBackoff 2), .locked], [.result true], h2,
    by rw [← h1]; rfl, rfl, rfl⟩

/-- The full property: a backoff before every clear channel assessment, the first included, the
`k`-th with the exponent `min(MIN_BE + k - 1, MAX_BE)`. -/
def C86_statement : Prop :=
  ∀ (c : Consts), c.maxBe ≤ 31 ∧ c.minBe < 65535 → 1 ≤ c.maxCsmaBackoffs →
  ∀ (ch : PhyChannel) (b : Arr 128) (held : Bool) (t : List (Ev CallAns)) (o : Fin (Bool × Bool)),
  Exec (transmitCca c ch b held (.newExponential c)) t o →
  ∀ (l1 l2 : List TxEvent) (b' : Arr 128) (cfg : TxConfig),
  t.filterMap txEvent = l1 ++ .attempt b' cfg :: l2 →
  (pauses l1).length = (attempts l1).length + 1

/-- It is false: the first attempt is made at once. -/
theorem C86_false : ¬ C86_statement := by
  intro h
  obtain ⟨t, h1, h2⟩ := poll_outcome busyTwice 20
    (transmitCca {} .c26 someBuffer false (.newExponential {})) 0 []
  rw [List.nil_append] at h1
  have h3 : t.filterMap txEvent = [.locked] ++ .attempt someBuffer ⟨.c26, true⟩ :: (
      [.result false, .unlocked, .random 5, .pause 320, .report (.ccaBackoff 1),
      .locked, .attempt someBuffer ⟨.c26, true⟩, .result false, .unlocked,
      .random 5, .pause 320, .report (.ccaBackoff 2),
      .locked, .attempt someBuffer ⟨.c26, true⟩, .result true]) := by rw [← h1]; rfl
  have := h {} (by decide) (by decide) _ _ _ t _ h2 _ _ _ _ h3
  simp [pauses, attempts] at this

end Dot15d4.Props
