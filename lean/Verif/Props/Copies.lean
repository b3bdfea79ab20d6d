import Verif.Spec.Copies
import Verif.Props.Traffic

/-! # C100: how often a package is handed over -/

namespace Dot15d4.Props
open Dot15d4 Out Spec Csma

/-! ## What a transmit task gets on the air -/

/-- What is on the air in a beginning of a history. -/
def Airs (l : List TxEvent) (n : Nat) : Prop := ∀ pre, pre <+: l → (onAir pre).length ≤ n

theorem onAir_attempt (b : Arr 128) (cfg : TxConfig) (l : List TxEvent) :
    onAir (.attempt b cfg :: l) = match l with
      | .result false :: l' => onAir l'
      | l => b :: onAir l := by
  cases l with
  | nil => rfl
  | cons e l =>
    cases e with
    | result ok => cases ok <;> rfl
    | _ => rfl

theorem onAir_other {e : TxEvent} (h : ∀ b cfg, e ≠ .attempt b cfg) (l : List TxEvent) :
    onAir (e :: l) = onAir l := by
  cases e with
  | attempt b cfg => exact absurd rfl (h b cfg)
  | _ => rfl

theorem onAir_append (l l' : List TxEvent) : List.Sublist (onAir (l ++ l')) (onAir l ++ onAir l') := by
  induction hn : l.length using Nat.strong_induction_on generalizing l with
  | _ n ih =>
  cases l with
  | nil => exact List.Sublist.refl _
  | cons e l =>
    by_cases he : ∀ b cfg, e ≠ .attempt b cfg
    · rw [List.cons_append, onAir_other he, onAir_other he]
      exact ih l.length (by simp at hn; omega) l rfl
    · simp only [not_forall, not_not] at he
      obtain ⟨b, cfg, rfl⟩ := he
      cases l with
      | nil =>
        rw [List.singleton_append, onAir_attempt]
        split
        · exact List.sublist_append_of_sublist_right (by rfl)
        · exact List.Sublist.refl _
      | cons e l =>
        have h1 := ih l.length (by simp at hn; omega) l rfl
        have h2 := ih (e :: l).length (by simp at hn ⊢; omega) (e :: l) rfl
        by_cases hf : e = .result false
        · subst hf; exact h1
        · have e1 : ∀ t, onAir (.attempt b cfg :: e :: t) = b :: onAir (e :: t) := by
            intro t
            rw [onAir_attempt]
            split
            · rename_i h; cases h; exact absurd rfl hf
            · rfl
          rw [List.cons_append, List.cons_append, e1, e1]
          exact h2.cons_cons b

theorem onAir_attempts (l : List TxEvent) : List.Sublist (onAir l) ((attempts l).map (·.1)) := by
  induction hn : l.length using Nat.strong_induction_on generalizing l with
  | _ n ih =>
  cases l with
  | nil => exact List.Sublist.refl _
  | cons e l =>
    have h1 := ih l.length (by simp at hn; omega) l rfl
    by_cases he : ∀ b cfg, e ≠ .attempt b cfg
    · rw [onAir_other he]
      cases e with
      | attempt b cfg => exact absurd rfl (he b cfg)
      | _ => exact h1
    · simp only [not_forall, not_not] at he
      obtain ⟨b, cfg, rfl⟩ := he
      rw [onAir_attempt]
      have e2 : attempts (.attempt b cfg :: l) = (b, cfg) :: attempts l := rfl
      rw [e2, List.map_cons]
      split
      · exact .cons _ (ih _ (by simp at hn; omega) _ rfl)
      · exact h1.cons_cons b

theorem Airs.append {l l' : List TxEvent} {n n' e : Nat} (h : Airs l n) (h' : Airs l' n')
    (he : (onAir l).length ≤ e) {k : Nat} (hn : n ≤ k) (hk : e + n' ≤ k) : Airs (l ++ l') k := by
  rintro pre ⟨q, hq⟩
  rcases List.append_eq_append_iff.1 hq with ⟨t, h1, -⟩ | ⟨t, rfl, ht⟩
  · exact (h pre ⟨t, h1.symm⟩).trans hn
  · have := (onAir_append l t).length_le
    rw [List.length_append] at this
    have := h' t ⟨q, ht.symm⟩
    omega

theorem Airs.mono {l : List TxEvent} {n k : Nat} (h : Airs l n) (hn : n ≤ k) : Airs l k :=
  fun pre hp => (h pre hp).trans hn

/-- Where nothing is transmitted. -/
theorem onAir_quiet {l : List TxEvent} (h : attempts l = []) : onAir l = [] := by
  have := onAir_attempts l
  rw [h] at this
  exact List.sublist_nil.1 this

theorem airs_quiet {l : List TxEvent} (h : attempts l = []) : Airs l 0 := by
  intro pre ⟨t, ht⟩
  rw [← ht, attempts_append, List.append_eq_nil_iff] at h
  rw [onAir_quiet h.1]
  exact Nat.le_refl 0

theorem airs_one (b : Arr 128) (cfg : TxConfig) (l : List TxEvent) (h : attempts l = []) :
    Airs (.attempt b cfg :: l) 1 := by
  intro pre ⟨t, ht⟩
  have := (onAir_attempts pre).length_le
  rw [List.length_map] at this
  have e := congrArg (fun l => (attempts l).length) ht
  simp only [attempts_append, List.length_append] at e
  have e2 : attempts (.attempt b cfg :: l) = (b, cfg) :: attempts l := rfl
  rw [e2, h] at e
  simp at e
  omega

theorem attempts_taking (held : Bool) : attempts (taking held) = [] := by cases held <;> rfl

theorem CcaLog.airs {c : Consts} {channel : PhyChannel} {b : Arr 128} {i : Nat} {held ok : Bool}
    {l : List TxEvent} (h : CcaLog c channel b i held l ok) :
    Airs l 1 ∧ (onAir l).length ≤ ok.toNat := by
  have t0 : ∀ held, (onAir (taking held)).length ≤ 0 := fun held => by
    rw [onAir_quiet (attempts_taking held)]; exact Nat.le_refl 0
  have bound : ∀ (l l' : List TxEvent) n m, (onAir l).length ≤ n → (onAir l').length ≤ m →
      (onAir (l ++ l')).length ≤ n + m := fun l l' n m h1 h2 => by
    have := (onAir_append l l').length_le
    rw [List.length_append] at this
    omega
  induction h with
  | @sent i held hi =>
    refine ⟨(airs_quiet (attempts_taking held)).append (airs_one _ _ _ rfl) (t0 held) (by omega)
      (by omega), ?_⟩
    exact bound _ _ 0 1 (t0 held) (Nat.le_refl 1)
  | @failed held =>
    refine ⟨(airs_quiet (attempts_taking held)).append (airs_one _ _ _ rfl) (t0 held) (by omega)
      (by omega), ?_⟩
    exact bound _ _ 0 0 (t0 held) (Nat.le_refl 0)
  | @again i held r l l' ok hi hint hl ih =>
    have ql : attempts l = [] := by
      rcases interleave_21 hint with rfl | rfl | rfl <;> rfl
    have a1 : Airs (taking held ++ [.attempt b ⟨channel, true⟩, .result false, .unlocked]) 1 :=
      (airs_quiet (attempts_taking held)).append (airs_one _ _ _ rfl) (t0 held) (by omega) (by omega)
    have b1 : (onAir (taking held ++ [.attempt b ⟨channel, true⟩, .result false, .unlocked])).length ≤ 0 :=
      bound _ _ 0 0 (t0 held) (Nat.le_refl 0)
    have a2 := a1.append (airs_quiet ql) b1 (k := 1) (by omega) (by omega)
    have b2 := bound _ l 0 0 b1 (by rw [onAir_quiet ql]; exact Nat.le_refl 0)
    refine ⟨a2.append ih.1 b2 (by omega) (by omega), ?_⟩
    have := bound _ l' 0 _ b2 ih.2
    omega

theorem SendLog.airs {D : Device} {b : Arr 128} {seq : Option Byte} {i : Nat} {l : List TxEvent}
    {o : TxOutcome} (h : SendLog D b seq i l o) (hi : i ≤ D.consts.maxFrameRetries) :
    Airs l (if seq = none then 1 else D.consts.maxFrameRetries + 1 - i) := by
  have one : ∀ {l l' : List TxEvent} {ok : Bool}, CcaLog D.consts D.config.channel b 1 false l ok →
      attempts l' = [] → Airs (l ++ l') 1 ∧ (onAir (l ++ l')).length ≤ 1 := by
    intro l l' ok hl hl'
    obtain ⟨h1, h2⟩ := CcaLog.airs hl
    have h3 : (onAir l).length ≤ 1 := h2.trans (by cases ok <;> decide)
    refine ⟨h1.append (airs_quiet hl') h3 (Nat.le_refl 1) (Nat.le_refl 1), ?_⟩
    have := (onAir_append l l').length_le
    rw [List.length_append, onAir_quiet hl'] at this
    exact this.trans h3
  have mono : ∀ {l : List TxEvent} {i : Nat}, i ≤ D.consts.maxFrameRetries → Airs l 1 →
      Airs l (if seq = none then 1 else D.consts.maxFrameRetries + 1 - i) := by
    intro l i hi h
    refine h.mono ?_
    split <;> omega
  induction h with
  | ccaFailed hl => exact mono hi (one hl rfl).1
  | sent hs hl => exact mono hi (one hl rfl).1
  | acked hs hl ha =>
    rw [List.append_assoc]
    refine mono hi (one hl ?_).1
    rw [attempts_append, (AckLog.facts ha).1]; rfl
  | ackFailed hs hl ha =>
    rw [List.append_assoc]
    refine mono hi (one hl ?_).1
    rw [attempts_append, (AckLog.facts ha).1]; rfl
  | @retry i l l' s l'' o hs hl ha hlt _ ih =>
    rw [List.append_assoc l]
    have h1 := one hl (l' := l' ++ [.unlocked, .pause (retryPause D.consts), .report (.ackRetry i)])
      (by rw [attempts_append, (AckLog.facts ha).1]; rfl)
    have h2 := ih hlt
    have hn : seq ≠ none := by rw [hs]; exact fun h => by cases h
    rw [if_neg hn] at h2 ⊢
    exact h1.1.append h2 h1.2 (by omega) (by omega)

/-! ## Counting -/

open Classical in
/-- How many of these buffers have the frame. -/
noncomputable def having (D : Device) (m : Bytes) (l : List (Arr 128)) : Nat :=
  l.countP fun b => decide (FrameIn D.format b m)

open Classical in
/-- Of how many of these packages the frame is made. -/
noncomputable def making (D : Device) (m : Bytes) (l : List FrameBuffer) : Nat :=
  l.countP fun p => decide (Becomes D p m)

/-- A number of transmissions over a clear channel for which every package with the frame is good. -/
def Limits (D : Device) (m : Bytes) (K : Nat) : Prop :=
  ∀ p b q cs, Prepared D p b q cs → FrameIn D.format b m →
    (if q = none then 1 else D.consts.maxFrameRetries) ≤ K

theorem package_airs {D : Device} (hr : 1 ≤ D.consts.maxFrameRetries) {m : Bytes} {K : Nat}
    (hK : Limits D m K) {pre rest : List TxEvent} {o : TxOutcome} (h : PackageLog D (pre ++ rest) o) :
    having D m (onAir pre) ≤ K * making D m (fetches pre) := by
  classical
  generalize hl : pre ++ rest = l at h
  have hall := C48_package hr h
  cases h with
  | mk p b seq cs l o hp hs =>
  obtain ⟨-, -, -, -, -, -, -, -, -, hat, -⟩ := hall
  have hair : Airs (.fetched p :: cs ++ l) (if seq = none then 1 else D.consts.maxFrameRetries) := by
    have h0 : attempts (.fetched p :: cs) = [] := (Prepared.facts hp).1
    have := SendLog.airs hs hr
    rw [Nat.add_sub_cancel] at this
    exact (airs_quiet h0).append this (e := 0) (by rw [onAir_quiet h0]; exact Nat.le_refl 0)
      (Nat.zero_le _) (Nat.le_of_eq (Nat.zero_add _))
  have hlen := hair pre ⟨rest, hl⟩
  have hb : ∀ x ∈ onAir pre, x = b := by
    intro x hx
    have hx := (onAir_attempts pre).subset hx
    obtain ⟨y, hy, rfl⟩ := List.mem_map.1 hx
    have hy : y ∈ attempts (.fetched p :: cs ++ l) := by
      rw [← hl, attempts_append]; exact List.mem_append_left _ hy
    have hq := SendLog.facts hs
    obtain ⟨-, -, hq, -⟩ := hq
    rw [attempts_append, show attempts (.fetched p :: cs) = [] from (Prepared.facts hp).1] at hy
    rw [hq y hy]
  cases pre with
  | nil => exact Nat.zero_le _
  | cons e pre =>
    rw [List.cons_append, List.cons_append] at hl
    obtain ⟨rfl, -⟩ := List.cons.inj hl
    by_cases hf : FrameIn D.format b m
    · have h1 : 1 ≤ making D m (fetches (.fetched p :: pre)) := by
        have hbe : Becomes D p m := ⟨b, seq, cs, hp, hf⟩
        rw [fetches_cons_fetched, making, List.countP_cons, if_pos (decide_eq_true hbe)]
        omega
      have h2 : having D m (onAir (.fetched p :: pre)) ≤ K :=
        List.countP_le_length.trans (hlen.trans (hK _ _ _ _ hp hf))
      exact h2.trans (Nat.le_mul_of_pos_right K h1)
    · have : having D m (onAir (.fetched p :: pre)) = 0 := by
        rw [having, List.countP_eq_zero]
        intro x hx
        rw [hb x hx, decide_eq_true_eq]
        exact hf
      omega

theorem having_append (D : Device) (m : Bytes) (l l' : List TxEvent) :
    having D m (onAir (l ++ l')) ≤ having D m (onAir l) + having D m (onAir l') := by
  classical
  have := (onAir_append l l').countP_le (p := fun b => decide (FrameIn D.format b m))
  rw [List.countP_append] at this
  exact this

theorem making_append (D : Device) (m : Bytes) (l l' : List TxEvent) :
    making D m (fetches (l ++ l')) = making D m (fetches l) + making D m (fetches l') := by
  rw [fetches_append, making, List.countP_append]; rfl

theorem transmitLog_airs {D : Device} (hr : 1 ≤ D.consts.maxFrameRetries) {m : Bytes} {K : Nat}
    (hK : Limits D m K) {l : List TxEvent} (h : TransmitLog D l) :
    having D m (onAir l) ≤ K * making D m (fetches l) := by
  obtain ⟨packages, last, rfl, hpk, hlast⟩ := h
  have h1 := having_append D m packages.flatten last
  rw [making_append, Nat.mul_add]
  refine h1.trans (Nat.add_le_add ?_ ?_)
  · clear h1
    induction packages with
    | nil => exact Nat.zero_le _
    | cons r packages ih =>
      obtain ⟨o, h⟩ := hpk r (by simp)
      have h2 := package_airs hr hK (rest := []) (by rw [List.append_nil]; exact h)
      have h3 := ih fun r hr => hpk r (by simp [hr])
      rw [List.flatten_cons, making_append, Nat.mul_add]
      have := having_append D m r packages.flatten
      omega
  · rcases hlast with rfl | ⟨rest, o, h⟩
    · exact Nat.zero_le _
    · exact package_airs hr hK h

theorem not_there (i : Decidable False) : @decide False i = false := decide_eq_false id

open Classical in
theorem count_making (D : Device) (m : Bytes) (t : List (Ev CallAns)) :
    making D m (fetches (t.filterMap txEvent)) = t.countP fun e => decide (Given D e m) := by
  rw [fetches, List.filterMap_filterMap, making, List.countP_filterMap]
  refine List.countP_congr fun e _ => ?_
  cases e with
  | start e => obtain ⟨tid, op⟩ := e; cases tid <;> cases op <;> simp [txEvent, Given] <;> exact not_there _
  | ret e r =>
    obtain ⟨tid, op⟩ := e
    cases tid <;> cases op <;> try simp [txEvent, Given]
    all_goals first | exact not_there _ | rfl | (split <;> simp <;> exact not_there _)

open Classical in
/-- What a device gets on the air. -/
theorem device_airs (D : Device) (hD : Sane D) {m : Bytes} {K : Nat} (hK : Limits D m K)
    {t : List (Ev CallAns)} {o : Fin Empty} (he : Exec (runDevice D) t o) :
    ((onAir (t.filterMap txEvent)).countP fun b => decide (FrameIn D.format b m)) ≤
      K * t.countP fun e => decide (Given D e m) := by
  have := transmitLog_airs hD.retries hK (C48_device D hD he)
  rw [count_making] at this
  exact this

open Classical in
theorem count_handed (D : Device) (m : Bytes) {t : List (Ev CallAns)} {o : Fin Empty}
    (he : Exec (runDevice D) t o) :
    (t.countP fun e => decide (HandsOver D e m)) =
      (deliveries (t.filterMap rxEvent)).countP fun fb => decide (FrameIn D.format fb.buffer m) := by
  rw [deliveries, List.filterMap_filterMap, List.countP_filterMap]
  refine List.countP_congr fun e hm => ?_
  have hc := (C59_calls D he e hm).2.1
  cases e with
  | start e =>
    obtain ⟨tid, op⟩ := e
    cases tid <;> cases op <;> try simp [rxEvent, HandsOver]
    all_goals first
      | exact not_there _
      | exact absurd (hc _ _ rfl).1 (by decide)
      | (rename_i fb; by_cases h : FrameIn D.format fb.buffer m <;> simp [h])
  | ret e r =>
    obtain ⟨tid, op⟩ := e
    cases tid <;> cases op <;> try simp [rxEvent, HandsOver]
    all_goals first | exact not_there _ | (split <;> simp <;> exact not_there _)

open Classical in
/-- What is handed over was received. -/
theorem handed_le (D : Device) (hD : Sane D) (m : Bytes) {t : List (Ev CallAns)} {o : Fin Empty}
    (he : Exec (runDevice D) t o) :
    (t.countP fun e => decide (HandsOver D e m)) ≤ t.countP fun e => decide (Receives D e m) := by
  obtain ⟨handled, pending, h1, -, h2⟩ := C70_in_order_partial D hD he
  have e2 : ((receptions (t.filterMap rxEvent)).countP fun b => decide (FrameIn D.format b m)) ≤
      t.countP fun e => decide (Receives D e m) := by
    rw [receptions, List.filterMap_filterMap, List.countP_filterMap]
    refine List.countP_mono_left fun e _ => ?_
    cases e with
    | start e => obtain ⟨tid, op⟩ := e; cases tid <;> cases op <;> simp [rxEvent]
    | ret e r =>
      obtain ⟨tid, op⟩ := e
      cases tid <;> cases op <;> try simp [rxEvent]
      by_cases h : r.1 = true <;> simp [h, Receives]
  rw [count_handed D m he, h2, wanted, List.countP_map]
  refine le_trans ?_ e2
  rw [h1, List.countP_append]
  exact ((List.filter_sublist (l := handled)).countP_le).trans (Nat.le_add_right _ _)

open Classical in
theorem handed_limited {ι : Type} [DecidableEq ι] [Fintype ι] (D : ι → Device)
    (hD : ∀ i, Sane (D i)) {g : List (ι × Ev CallAns)} (hg : Network D g) (hc : Singly D g) {m : Bytes}
    (hm : 3 < m.length) {K : Nat} (hK : ∀ j, Limits (D j) m K) (i : ι) :
    ((ofDevice i g).countP fun e => decide (HandsOver (D i) e m)) ≤
      K * g.countP fun x => decide (x.1 ≠ i ∧ Given (D x.1) x.2 m) := by
  obtain ⟨o, ho⟩ := hg.run i
  refine (handed_le (D i) (hD i) m ho).trans ((hc i m hm).trans ?_)
  rw [countP_devices Finset.univ (fun j e => decide (j ≠ i ∧ Given (D j) e m)) g
    fun x _ => Finset.mem_univ _, Finset.mul_sum]
  refine le_trans (Finset.sum_le_sum (g := fun j => K * (ofDevice j g).countP
    fun e => decide (j ≠ i ∧ Given (D j) e m)) fun j hj => ?_)
    (Finset.sum_le_sum_of_subset (Finset.subset_univ _))
  obtain ⟨o, ho⟩ := hg.run j
  have hne := (Finset.mem_erase.1 hj).1
  have := device_airs (D j) (hD j) (hK j) ho
  simpa [hne] using this

open Classical in
/-- **C100**.  In every history of a network whose medium makes no copies: a device hands a frame over at
most `R` times for every package the other devices were given of which they make this frame (`R`
bounds their `MAC_MAX_FRAME_RETRIES`) - not `R` times `MAC_MAX_CSMA_BACKOFFS`: attempts that found the
channel busy do not count. -/
theorem C100_bounded {ι : Type} [DecidableEq ι] [Fintype ι] (D : ι → Device) (hD : ∀ i, Sane (D i))
    {R : Nat} (hR : ∀ j, (D j).consts.maxFrameRetries ≤ R) {g : List (ι × Ev CallAns)}
    (hg : Network D g) (hc : Singly D g) {m : Bytes} (hm : 3 < m.length) (i : ι) :
    ((ofDevice i g).countP fun e => decide (HandsOver (D i) e m)) ≤
      R * g.countP fun x => decide (x.1 ≠ i ∧ Given (D x.1) x.2 m) := by
  refine handed_limited D hD hg hc hm (fun j p b q cs _ _ => ?_) i
  have := (hD j).retries
  have := hR j
  split <;> omega

theorem limits_once {D : Device} (hD : Sane D) {m : Bytes} (ha : ¬ RequestsAck m) : Limits D m 1 := by
  intro p b q cs hp hb
  cases hp with
  | noDeviceFrame => exact Nat.le_refl 1
  | noIeeeFrame => exact Nat.le_refl 1
  | frame h0 n o0 o1 want hw0 hacc0 hn hb0 hwant hd hc hbuf =>
    cases want with
    | false => exact Nat.le_refl 1
    | true =>
      refine absurd ?_ ha
      have hl0 : h0.bytes.length = n := by
        have e := congrArg List.length hb0
        have hin := hD.format.frame_inside _ _ hn
        rw [RadioFormat.data, List.length_take, List.length_drop] at e
        omega
      have hl : (({ h0 with o0 := o0, o1 := o1 } : Header).overwrite D).bytes.length = n := by
        rw [overwrite_length, ← hl0]
        simp [Header.bytes]
      have : m = (({ h0 with o0 := o0, o1 := o1 } : Header).overwrite D).bytes := by
        refine frameIn_unique hb ⟨n, ?_, ?_⟩
        · rw [hbuf]; exact hD.format.frame_stable _ _ _ hn hl
        · rw [hbuf]; exact data_putData _ _ _ _ (hD.format.frame_inside _ _ hn) hl
      refine ⟨o0, o1, _, this.trans rfl, ?_⟩
      rw [hd]
      simp

open Classical in
/-- **C100**, frames without ack request: at most once per package. -/
theorem C100_once {ι : Type} [DecidableEq ι] [Fintype ι] (D : ι → Device) (hD : ∀ i, Sane (D i))
    {g : List (ι × Ev CallAns)} (hg : Network D g) (hc : Singly D g) {m : Bytes} (hm : 3 < m.length)
    (ha : ¬ RequestsAck m) (i : ι) :
    ((ofDevice i g).countP fun e => decide (HandsOver (D i) e m)) ≤
      g.countP fun x => decide (x.1 ≠ i ∧ Given (D x.1) x.2 m) := by
  have := handed_limited D hD hg hc hm (K := 1) (fun j => limits_once (hD j) ha) i
  rwa [Nat.one_mul] at this

/-! ## Examples -/

open Classical in
theorem count_receives (D : Device) (m : Bytes) (t : List (Ev CallAns)) :
    (t.countP fun e => decide (Receives D e m)) =
      (radioReceptions t).countP fun b => decide (FrameIn D.format b m) := by
  rw [radioReceptions, List.countP_filterMap]
  refine List.countP_congr fun e _ => ?_
  cases e with
  | start e => simp [Receives]; exact not_there _
  | ret e r =>
    obtain ⟨tid, op⟩ := e
    cases op <;> cases tid <;> try simp [Receives]
    all_goals first | exact not_there _ | (by_cases h : r.1 = true <;> simp [h])

/-- Two devices, the second of which receives exactly what the first gets on the air. -/
def heardOnce (t u : List (Ev CallAns)) : List (Bool × Ev CallAns) :=
  t.map (false, ·) ++ (u.map (true, ·) ++ ([] : List (Ev CallAns)).map (false, ·))

theorem heardOnce_network {t u : List (Ev CallAns)} (ht : Exec (runDevice exampleDevice) t .pending)
    (hu : Exec (runDevice exampleDevice) u .pending) (h0 : radioReceptions t = [])
    (h1 : radioReceptions u = onAir (t.filterMap txEvent)) :
    Network (fun _ : Bool => exampleDevice) (heardOnce t u) ∧
      Singly (fun _ : Bool => exampleDevice) (heardOnce t u) ∧
      ofDevice false (heardOnce t u) = t ∧ ofDevice true (heardOnce t u) = u := by
  have e0 : ofDevice false (heardOnce t u) = t := by
    simp [heardOnce, ofDevice_append, ofDevice_map]
  have e1 : ofDevice true (heardOnce t u) = u := by
    simp [heardOnce, ofDevice_append, ofDevice_map]
  refine ⟨network_of_three _ (by decide) (by decide) _ _ _ ?_ h0 ?_ ?_, ?_, e0, e1⟩
  · intro i
    cases i
    · exact ⟨.pending, by have := e0; unfold heardOnce at this; rw [this]; exact ht⟩
    · exact ⟨.pending, by have := e1; unfold heardOnce at this; rw [this]; exact hu⟩
  · intro b hb m hm
    rw [h1] at hb
    have hx := (onAir_attempts _).subset hb
    obtain ⟨⟨y, c⟩, hy, rfl⟩ := List.mem_map.1 hx
    obtain ⟨ev, h2, h3⟩ := List.mem_filterMap.1 hy
    cases ev <;> cases h3
    exact ⟨_, txEvent_attempt_mem h2, hm⟩
  · intro b hb; cases hb
  · intro i m _
    cases i
    · rw [e0, count_receives, h0]; exact Nat.zero_le _
    · have : (Finset.univ : Finset Bool).erase true = {false} := by decide
      rw [this, Finset.sum_singleton, e0, e1, count_receives, h1]

set_option maxRecDepth 40000 in
open Classical in
/-- The bound of `C100_bounded` is reached: without acknowledgements, a package is handed over three times
by a device that hears all of its transmissions. -/
example : ∃ g : List (Bool × Ev CallAns), Network (fun _ => exampleDevice) g ∧
    Singly (fun _ => exampleDevice) g ∧ 3 < exchanged.bytes.length ∧
    exampleDevice.consts.maxFrameRetries = 3 ∧
    ((ofDevice true g).countP fun e => decide (HandsOver exampleDevice e exchanged.bytes)) = 3 ∧
    (g.countP fun x => decide (x.1 ≠ true ∧ Given exampleDevice x.2 exchanged.bytes)) = 1 := by
  obtain ⟨t, h1, h2⟩ := poll_outcome deafSender 40 (runDevice exampleDevice)
    ⟨some examplePackage, none, none, true⟩ []
  obtain ⟨u, k1, k2⟩ := poll_outcome hearing 20 (runDevice exampleDevice)
    ([askingFrame, askingFrame, askingFrame], ⟨none, none, none, true⟩) []
  rw [List.nil_append] at h1 k1
  have hf : FrameIn exampleDevice.format askingFrame exchanged.bytes := ⟨12, rfl, rfl⟩
  obtain ⟨g1, g2, g3, g4⟩ := heardOnce_network (t := t) (u := u) (outcome_pending h2)
    (outcome_pending k2) (by rw [← h1]; rfl) (by rw [← h1, ← k1]; rfl)
  refine ⟨_, g1, g2, by decide, rfl, ?_, ?_⟩
  · rw [g4, count_handed _ _ (outcome_pending k2)]
    have : deliveries (u.filterMap rxEvent) =
        [⟨askingFrame, true⟩, ⟨askingFrame, true⟩, ⟨askingFrame, true⟩] := by rw [← k1]; rfl
    rw [this]
    simp [hf]
  · rw [countP_devices Finset.univ (fun j e => decide (j ≠ true ∧ Given exampleDevice e exchanged.bytes))
      _ fun x _ => Finset.mem_univ _, Fintype.sum_bool, g3]
    have : fetches (t.filterMap txEvent) = [examplePackage] := by rw [← h1]; rfl
    have hbe : Becomes exampleDevice examplePackage exchanged.bytes :=
      ⟨_, _, _, examplePackage_prepared, hf⟩
    have hc := count_making exampleDevice exchanged.bytes t
    rw [this, making] at hc
    simpa [hbe] using hc.symm

/-- A broadcast frame. -/
def toAll : Header := toShort ⟨[0xff, 0xff], rfl⟩ 0xffff

/-- It is transmitted as it is. -/
def toAllFrame : Arr 128 := padded ([12] ++ toAll.bytes)

set_option maxRecDepth 20000 in
theorem toAll_prepared : Prepared exampleDevice toAllFrame toAllFrame none [] := by
  refine Prepared.frame toAll 12 0x41 0x98 false ?_ ?_ ?_ ?_ ?_ ?_ ?_ ?_
  · refine ⟨by decide, ?_⟩
    show _ = _ ∧ _ ∧ _
    decide
  · exact ⟨by decide, by decide, 0x41, 0x98, _, rfl, by decide, by decide, by decide, by decide,
      by decide, by decide⟩
  · rfl
  · rfl
  · refine ⟨fun h => absurd h Bool.false_ne_true, ?_⟩
    rintro ⟨-, ⟨⟨a, h1, h2⟩, -⟩ | ⟨-, h⟩⟩
    · cases h1; exact absurd rfl h2
    · cases h
  · decide
  · decide
  · rfl

set_option maxRecDepth 40000 in
open Classical in
/-- The bound of `C100_once` is reached: a broadcast frame, without ack request, is handed over once. -/
example : ∃ g : List (Bool × Ev CallAns), Network (fun _ => exampleDevice) g ∧
    Singly (fun _ => exampleDevice) g ∧ 3 < toAll.bytes.length ∧ ¬ RequestsAck toAll.bytes ∧
    ((ofDevice true g).countP fun e => decide (HandsOver exampleDevice e toAll.bytes)) = 1 ∧
    (g.countP fun x => decide (x.1 ≠ true ∧ Given exampleDevice x.2 toAll.bytes)) = 1 := by
  obtain ⟨t, h1, h2⟩ := poll_outcome deafSender 40 (runDevice exampleDevice)
    ⟨some ⟨toAllFrame, false⟩, none, none, true⟩ []
  obtain ⟨u, k1, k2⟩ := poll_outcome hearing 20 (runDevice exampleDevice)
    ([toAllFrame], ⟨none, none, none, true⟩) []
  rw [List.nil_append] at h1 k1
  have hf : FrameIn exampleDevice.format toAllFrame toAll.bytes := ⟨12, rfl, rfl⟩
  obtain ⟨g1, g2, g3, g4⟩ := heardOnce_network (t := t) (u := u) (outcome_pending h2)
    (outcome_pending k2) (by rw [← h1]; rfl) (by rw [← h1, ← k1]; rfl)
  refine ⟨_, g1, g2, by decide, ?_, ?_, ?_⟩
  · rintro ⟨o0, o1, l, e, h⟩
    obtain ⟨e1, e⟩ := List.cons.inj e
    obtain ⟨e2, -⟩ := List.cons.inj e
    rw [← e1, ← e2] at h
    exact absurd h (by decide)
  · rw [g4, count_handed _ _ (outcome_pending k2)]
    have : deliveries (u.filterMap rxEvent) = [⟨toAllFrame, true⟩] := by rw [← k1]; rfl
    rw [this]
    simp [hf]
  · rw [countP_devices Finset.univ (fun j e => decide (j ≠ true ∧ Given exampleDevice e toAll.bytes))
      _ fun x _ => Finset.mem_univ _, Fintype.sum_bool, g3]
    have : fetches (t.filterMap txEvent) = [⟨toAllFrame, false⟩] := by rw [← h1]; rfl
    have hbe : Becomes exampleDevice ⟨toAllFrame, false⟩ toAll.bytes := ⟨_, _, _, toAll_prepared, hf⟩
    have hc := count_making exampleDevice toAll.bytes t
    rw [this, making] at hc
    simpa [hbe] using hc.symm

end Dot15d4.Props
