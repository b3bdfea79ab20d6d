import Verif.Props.EndToEnd

/-!
# C70: what the upper layer is handed, in what order, and how often
-/

namespace Dot15d4.Props
open Dot15d4 Out Spec Csma

/-- The buffers the radio received, in order. -/
def receptions (l : List RxEvent) : List (Arr 128) :=
  l.filterMap fun | .got b => some b | _ => none

/-- There is a frame in the buffer that the device passes on. -/
def Wanted (D : Device) (b : Arr 128) : Prop := ∃ h, Holds D.format b.1 h ∧ PassedOn D h

open Classical in
/-- The buffers with a frame to pass on, as they are handed to the upper layer. -/
noncomputable def wanted (D : Device) (l : List (Arr 128)) : List FrameBuffer :=
  (l.filter fun b => decide (Wanted D b)).map fun b => ⟨b, true⟩

theorem wanted_append (D : Device) (l l' : List (Arr 128)) :
    wanted D (l ++ l') = wanted D l ++ wanted D l' := by simp [wanted]

theorem receptions_append (l l' : List RxEvent) :
    receptions (l ++ l') = receptions l ++ receptions l' := List.filterMap_append

theorem deliveries_append (l l' : List RxEvent) :
    deliveries (l ++ l') = deliveries l ++ deliveries l' := List.filterMap_append

/-- One round: one reception; delivered once if wanted, else not. -/
theorem round_deliveries {D : Device} {r : List RxEvent} (h : ReceivedOne D r) :
    ∃ b, receptions r = [b] ∧ deliveries r = wanted D [b] := by
  cases h with
  | dropped b hno =>
    refine ⟨b, rfl, ?_⟩
    have : ¬ Wanted D b := fun ⟨h, h1, h2⟩ => hno h h1 h2
    simp [wanted, this, deliveries]
  | delivered b h hh hps _ =>
    have : Wanted D b := ⟨h, hh, hps⟩
    exact ⟨b, rfl, by simp [wanted, this, deliveries]⟩
  | acknowledged b h s a l hh hps _ _ _ hi =>
    have : Wanted D b := ⟨h, hh, hps⟩
    refine ⟨b, ?_, ?_⟩ <;> rcases interleave_21 hi with rfl | rfl | rfl <;>
      simp [wanted, this, deliveries, receptions]

/-- **C70**, what holds: the order.  At every moment of every execution of a device, whatever its surroundings
do: the upper layer has been handed exactly the received buffers with a frame to pass on, unchanged,
in the order received, each once per reception; at most the last one received is still to come.  Missing: that a frame transmitted
again, although it had arrived, is not handed over again (`C70_false`). -/
theorem C70_in_order_partial (D : Device) (hD : Sane D) {t : List (Ev CallAns)} {o : Fin Empty}
    (he : Exec (runDevice D) t o) :
    ∃ handled pending : List (Arr 128),
      receptions (t.filterMap rxEvent) = handled ++ pending ∧ pending.length ≤ 1 ∧
      deliveries (t.filterMap rxEvent) = wanted D handled := by
  obtain ⟨rounds, last, e, hr, hl⟩ := C44_device D hD he
  have key : ∀ rounds : List (List RxEvent), (∀ r ∈ rounds, ReceivedOne D r) →
      deliveries rounds.flatten = wanted D (receptions rounds.flatten) := by
    intro rounds h
    induction rounds with
    | nil => rfl
    | cons r rs ih =>
      obtain ⟨b, h1, h2⟩ := round_deliveries (h r (by simp))
      rw [List.flatten_cons, deliveries_append, receptions_append, wanted_append, h1, h2,
        ih fun r hr => h r (by simp [hr])]
  rw [e]
  rcases hl with rfl | ⟨rest, hl⟩
  · exact ⟨receptions rounds.flatten, [], by simp, by simp, by simpa using key rounds hr⟩
  · obtain ⟨b, h1, h2⟩ := round_deliveries hl
    rw [receptions_append] at h1
    rw [deliveries_append] at h2
    by_cases hd : deliveries last = []
    · refine ⟨receptions rounds.flatten, receptions last, receptions_append _ _, ?_, ?_⟩
      · have := congrArg List.length h1
        simp only [List.length_append, List.length_cons, List.length_nil] at this
        omega
      · rw [deliveries_append, hd, List.append_nil, key rounds hr]
    · refine ⟨receptions (rounds.flatten ++ last), [], by simp, by simp, ?_⟩
      rw [deliveries_append, receptions_append, wanted_append, key rounds hr]
      congr 1
      have hl0 : deliveries rest = [] := by
        have hle : (wanted D [b]).length ≤ 1 :=
          (List.length_map ..).trans_le (List.length_filter_le ..)
        have hpos := List.length_pos_iff.2 hd
        have := congrArg List.length h2
        rw [List.length_append] at this
        exact List.length_eq_zero_iff.1 (by omega)
      rw [hl0, List.append_nil] at h2
      have hlast : receptions last = [b] := by
        obtain ⟨c, u, e1, hu⟩ := receivedOne_head hl
        cases last with
        | nil => exact absurd rfl hd
        | cons x last =>
          simp only [List.cons_append, List.cons.injEq] at e1
          obtain ⟨rfl, rfl⟩ := e1
          have hn : ∀ l : List RxEvent, NoGot l → receptions l = [] := by
            intro l hl
            rw [receptions, List.filterMap_eq_nil_iff]
            intro x hx
            cases x with
            | got b => exact absurd hx (hl b)
            | pause _ => rfl
            | send _ _ => rfl
            | deliver _ => rfl
          have e2 : receptions (RxEvent.got c :: last) = c :: receptions last := rfl
          rw [e2, hn _ (noGot_append.1 hu).1, hn _ (noGot_append.1 hu).2] at h1
          rw [e2, hn _ (noGot_append.1 hu).1]
          simpa using h1
      rw [h2, hlast]

/-! ## Once per package? -/

/-- **C70**, as wanted: what a device `S` transmits for one package, a device `R` hands to its upper
layer at most once.  In an execution of `S` in which it has been given one package, and an execution
of `R` in which it received, of the frames transmitted by `S`, one after the other, some
(`heard`: those it received, with the buffer they are received in). -/
def C70_statement : Prop :=
  ∀ (S R : Device), Sane S → Sane R →
  ∀ (t : List (Ev CallAns)) (o : Fin Empty), Exec (runDevice S) t o →
  (fetches (t.filterMap txEvent)).length = 1 →
  ∀ (t' : List (Ev CallAns)) (o' : Fin Empty), Exec (runDevice R) t' o' →
  ∀ heard : List (Arr 128 × Arr 128),
    (heard.map (·.1)).Sublist ((attempts (t.filterMap txEvent)).map (·.1)) →
    (∀ x ∈ heard, ∃ m, Carries S.format x.1 m ∧ Carries R.format x.2 m) →
    receptions (t'.filterMap rxEvent) = heard.map (·.2) →
    (deliveries (t'.filterMap rxEvent)).length ≤ 1

/-- Surroundings in which nothing is heard by the transmit task and its pauses end at once. -/
def deafSender : Prog.World CallAns Script where
  start e w := match e with
    | (.tx, .delay _) => (some (), w)
    | e => scripted.start e w
  poll e w := scripted.poll e w

set_option maxRecDepth 40000 in
/-- It is false: sequence numbers are not compared with those of earlier frames.  If the
acknowledgement is lost, the frame is transmitted again, and handed over again. -/
theorem C70_false : ¬ C70_statement := by
  intro hs
  obtain ⟨t, h1, h2⟩ := poll_outcome deafSender 40 (runDevice exampleDevice)
    ⟨some examplePackage, none, none, true⟩ []
  obtain ⟨t', h1', h2'⟩ := poll_outcome hearing 9 (runDevice exampleDevice)
    ([askingFrame, askingFrame], ⟨none, none, none, true⟩) []
  rw [List.nil_append] at h1 h1'
  have sane : Sane exampleDevice := ⟨lengthFormat_lawful, by decide, by decide, by decide, by decide⟩
  have key := hs exampleDevice exampleDevice sane sane t _ (outcome_pending h2) (by rw [← h1]; rfl)
    t' _ (outcome_pending h2') [(askingFrame, askingFrame), (askingFrame, askingFrame)]
    (by
      have e : attempts (t.filterMap txEvent) = List.replicate 3 (askingFrame, ⟨.c26, true⟩) := by
        rw [← h1]; rfl
      rw [e]
      exact .cons_cons _ (.cons_cons _ (List.nil_sublist _)))
    (by
      intro x hx
      simp only [List.mem_cons, List.not_mem_nil, or_false, or_self] at hx
      subst hx
      exact ⟨exchanged.bytes, ⟨12, rfl, rfl⟩, 12, rfl, rfl⟩)
    (by rw [← h1']; rfl)
  have e : (deliveries (t'.filterMap rxEvent)).length = 2 := by rw [← h1']; rfl
  omega

set_option maxRecDepth 40000 in
/-- Non-vacuity for `C70_in_order_partial`: two frames for the device, with something else between
them. -/
example : ∃ t, Exec (runDevice exampleDevice) t .pending ∧
    receptions (t.filterMap rxEvent) =
      [askingFrame, padded [200], padded ([14] ++ exampleSent)] ∧
    deliveries (t.filterMap rxEvent) =
      [⟨askingFrame, true⟩, ⟨padded ([14] ++ exampleSent), true⟩] := by
  obtain ⟨t, h1, h2⟩ := poll_outcome hearing 20 (runDevice exampleDevice)
    ([askingFrame, padded [200], padded ([14] ++ exampleSent)], ⟨none, none, none, true⟩) []
  rw [List.nil_append] at h1
  exact ⟨t, outcome_pending h2, by rw [← h1]; rfl, by rw [← h1]; rfl⟩

/-! ## In time -/

/-- **C65**, the timing: the pause of a device before an acknowledgement and the time on the air of
the acknowledgement together are no longer than the time a device with the same spacings waits for
the acknowledgement. -/
theorem C65_in_time (c : Consts) (ha : 0 ≤ c.aifs.us.toInt) (hs : 0 ≤ c.sifs.us.toInt)
    (hb : c.aifs.us.toInt + c.sifs.us.toInt + 288 < 2 ^ 32) :
    (BitVec.ofInt 32 (c.aifs.us.toInt.tdiv 2)).toNat + 288 ≤ (ackWait c).toNat := by
  rw [ackWait, BitVec.toNat_ofInt, BitVec.toNat_ofInt]
  generalize c.aifs.us.toInt = a at *
  generalize c.sifs.us.toInt = s at *
  have : a.tdiv 2 = a / 2 := Int.tdiv_eq_ediv_of_nonneg ha
  rw [this]
  omega

/-- Non-vacuity: the default spacings. -/
example : 0 ≤ exampleDevice.consts.aifs.us.toInt ∧ 0 ≤ exampleDevice.consts.sifs.us.toInt ∧
    exampleDevice.consts.aifs.us.toInt + exampleDevice.consts.sifs.us.toInt + 288 < 2 ^ 32 ∧
    (ackWait exampleDevice.consts).toNat = 2288 := by decide

end Dot15d4.Props
