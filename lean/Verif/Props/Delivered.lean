import Verif.Spec.Delivered
import Verif.Props.Ordered

/-!
# C102: what the medium does not lose is handed over
-/

namespace Dot15d4.Props
open Dot15d4 Out Spec Csma Prog

theorem handed_deliveries {D : Device} {t : List (Ev CallAns)} {o : Fin Empty}
    (he : Exec (runDevice D) t o) : framesHanded D t =
      (deliveries (t.filterMap rxEvent)).filterMap fun fb => frameInside D.format fb.buffer := by
  rw [deliveries, List.filterMap_filterMap, List.filterMap_filterMap, framesHanded]
  refine List.filterMap_congr fun e hm => ?_
  have hc := (C59_calls D he e hm).2.1
  cases e with
  | start e =>
    obtain ⟨tid, op⟩ := e
    cases tid <;> cases op <;> first
      | rfl
      | exact absurd (hc _ _ rfl).1 (by decide)
  | ret e r =>
    obtain ⟨tid, op⟩ := e
    cases tid <;> cases op <;> try rfl
    simp only [rxEvent]
    split <;> rfl

theorem heard_receptions (D : Device) (t : List (Ev CallAns)) : framesHeard D t =
    (receptions (t.filterMap rxEvent)).filterMap (frameInside D.format) := by
  rw [receptions, List.filterMap_filterMap, List.filterMap_filterMap, framesHeard]
  refine List.filterMap_congr fun e _ => ?_
  cases e with
  | start e => obtain ⟨tid, op⟩ := e; cases tid <;> cases op <;> rfl
  | ret e r =>
    obtain ⟨tid, op⟩ := e
    cases tid <;> cases op <;> try rfl
    by_cases h : r.1 = true
    · simp only [rxEvent, h, if_true]; rfl
    · simp only [rxEvent, h]; rfl

theorem frameFor_wanted {D : Device} {b : Arr 128} {m : Bytes} (hb : frameInside D.format b = some m)
    (hm : FrameFor D m) : Wanted D b := by
  obtain ⟨h, rfl, h1, h2, h3⟩ := hm
  exact ⟨h, ⟨h1, h2, frameInside_some.1 hb⟩, h3⟩

/-- A filter that keeps everything of interest changes nothing of interest. -/
theorem filter_filterMap_keep {α β : Type} (f : α → Option β) (W : α → Bool) (P : β → Bool)
    (h : ∀ a b, f a = some b → P b = true → W a = true) (l : List α) :
    ((l.filter W).filterMap f).filter P = (l.filterMap f).filter P := by
  induction l with
  | nil => rfl
  | cons a l ih =>
    cases hf : f a with
    | none =>
      rw [List.filterMap_cons_none hf]
      cases hW : W a
      · rw [List.filter_cons_of_neg (by simp [hW]), ih]
      · rw [List.filter_cons_of_pos hW, List.filterMap_cons_none hf, ih]
    | some b =>
      rw [List.filterMap_cons_some hf]
      cases hW : W a
      · have hP : P b = false := by
          cases hP : P b
          · rfl
          · rw [h a b hf hP] at hW; cases hW
        rw [List.filter_cons_of_neg (by simp [hW]), ih, List.filter_cons_of_neg (by simp [hP])]
      · rw [List.filter_cons_of_pos hW, List.filterMap_cons_some hf, List.filter_cons, List.filter_cons, ih]

/-- **C102**, the receiver, what holds.  Of the frames a device passes on, it has handed over exactly those its receive
task received, in the order received and once per reception; but perhaps for the last.  Missing: what the transmit task receives
while it waits for an acknowledgement (`C102_false`). -/
theorem C102_handed_partial (D : Device) (hD : Sane D) {t : List (Ev CallAns)} {o : Fin Empty}
    (he : Exec (runDevice D) t o) (P : Bytes → Bool) (hP : ∀ m, P m = true → FrameFor D m) :
    ∃ pending, pending.length ≤ 1 ∧
      (framesHeard D t).filter P = (framesHanded D t).filter P ++ pending := by
  obtain ⟨handled, pending, h1, h2, h3⟩ := C70_in_order_partial D hD he
  refine ⟨(pending.filterMap (frameInside D.format)).filter P, ?_, ?_⟩
  · exact (List.length_filter_le _ _).trans ((List.length_filterMap_le _ _).trans h2)
  · rw [heard_receptions, handed_deliveries he, h1, h3, wanted, List.filterMap_map,
      List.filterMap_append, List.filter_append]
    congr 1
    refine (filter_filterMap_keep (frameInside D.format) _ P ?_ handled).symm
    intro b m hb hm
    exact @decide_eq_true _ (Classical.propDecidable _) (frameFor_wanted hb (hP m hm))

/-- **C102**, the frames that are lost.  A device hands over nothing else: all it hands over was received by
its receive task, in this order; what the transmit task received is dropped. -/
theorem C102_dropped (D : Device) (hD : Sane D) {t : List (Ev CallAns)} {o : Fin Empty}
    (he : Exec (runDevice D) t o) : List.Sublist (framesHanded D t) (framesHeard D t) := by
  obtain ⟨handled, pending, h1, h2, h3⟩ := C70_in_order_partial D hD he
  rw [heard_receptions, handed_deliveries he, h1, h3, wanted, List.filterMap_map]
  exact (List.filter_sublist.filterMap _).trans ((List.sublist_append_left _ _).filterMap _)

/-- **C102**.  A device `S` that did not report `CcaFailed`, and frames `P` that a device `R` passes on: if
the receive task of `R` receives all of them that `S` gets on the air, in this order, then it hands over the
frame of every package given to `S`, but perhaps of the last one, in the order given; at most the last
reception is still to be handed over. -/
theorem C102_delivered (S R : Device) (hS : Sane S) (hR : Sane R) {t u : List (Ev CallAns)}
    {o o' : Fin Empty} (ht : Exec (runDevice S) t o) (hu : Exec (runDevice R) u o') (P : Bytes → Bool)
    (hP : ∀ m, P m = true → FrameFor R m) (hno : Ev.start (.tx, .driverError .ccaFailed) ∉ t)
    (hmedium : List.Sublist ((framesOnAir S t).filter P) (framesHeard R u)) :
    ∃ made pending, List.Forall₂ (MakesOf S) (packagesGiven t) made ∧ pending.length ≤ 1 ∧
      List.Sublist ((made.dropLast.filterMap id).filter P) (framesHanded R u ++ pending) := by
  obtain ⟨made, h1, h2, -⟩ := C101_none_skipped S hS ht hno
  obtain ⟨pending, k1, k2⟩ := C102_handed_partial R hR hu P hP
  refine ⟨made, pending, h1, k1, (h2.filter P).trans ?_⟩
  have h3 := hmedium.filter P
  rw [List.filter_filter, k2] at h3
  simp only [Bool.and_self] at h3
  exact h3.trans (List.filter_sublist.append (List.Sublist.refl _))

set_option maxRecDepth 100000 in
/-- Non-vacuity: two packages with a broadcast frame, between them one to another device; the receiver
hears all of them and hands the broadcast frames over. -/
example : ∃ t u P, Exec (runDevice exampleDevice) t .pending ∧ Exec (runDevice exampleDevice) u .pending ∧
    (∀ m, P m = true → FrameFor exampleDevice m) ∧
    Ev.start (Tid.tx, Op.driverError .ccaFailed) ∉ t ∧
    List.Sublist ((framesOnAir exampleDevice t).filter P) (framesHeard exampleDevice u) ∧
    packagesGiven t = [⟨toAllFrame, false⟩, examplePackage, ⟨toAllFrame, false⟩] ∧
    framesOnAir exampleDevice t =
      [toAll.bytes, exchanged.bytes, exchanged.bytes, exchanged.bytes, toAll.bytes] ∧
    framesHanded exampleDevice u = [toAll.bytes, exchanged.bytes, toAll.bytes] := by
  obtain ⟨t, h1, h2⟩ := poll_outcome serving 80 (runDevice exampleDevice)
    ([⟨toAllFrame, false⟩, examplePackage, ⟨toAllFrame, false⟩], ⟨none, none, none, true⟩) []
  obtain ⟨u, k1, k2⟩ := poll_outcome hearing 20 (runDevice exampleDevice)
    ([toAllFrame, askingFrame, toAllFrame], ⟨none, none, none, true⟩) []
  rw [List.nil_append] at h1 k1
  have e2 : framesOnAir exampleDevice t =
      [toAll.bytes, exchanged.bytes, exchanged.bytes, exchanged.bytes, toAll.bytes] := by rw [← h1]; rfl
  refine ⟨t, u, (· == toAll.bytes), outcome_pending h2, outcome_pending k2, ?_, ?_, ?_, ?_, e2, ?_⟩
  · intro m hm
    obtain rfl := eq_of_beq hm
    refine ⟨toAll, rfl, ?_, ?_, ?_⟩
    · refine ⟨by decide, ?_⟩
      show _ = _ ∧ _ ∧ _
      decide
    · exact ⟨by decide, by decide, 0x41, 0x98, _, rfl, by decide, by decide, by decide, by decide,
        by decide, by decide⟩
    · exact ⟨.inl ⟨.inr rfl, .inl rfl⟩, by decide⟩
  · intro h
    have : DriverError.ccaFailed ∈ reports (t.filterMap txEvent) :=
      List.mem_filterMap.2 ⟨_, List.mem_filterMap.2 ⟨_, h, rfl⟩, rfl⟩
    have e : DriverError.ccaFailed ∉ reports (t.filterMap txEvent) := by
      rw [← h1]
      decide
    exact e this
  · rw [e2, show framesHeard exampleDevice u = [toAll.bytes, exchanged.bytes, toAll.bytes] by rw [← k1]; rfl,
      show List.filter _ _ = [toAll.bytes, toAll.bytes] by decide]
    exact .cons_cons _ (.cons _ (.cons_cons _ .slnil))
  · rw [← h1]; rfl
  · rw [← k1]; rfl

/-! ## Devices that await no acknowledgement -/

theorem package_deaf {D : Device} (hD : Sane D) {pre rest : List TxEvent} {o : TxOutcome}
    (h : PackageLog D (pre ++ rest) o) (hn : AwaitsNone D (fetches pre)) : heards pre = [] := by
  cases hc : pre with
  | nil => rfl
  | cons x pre' =>
    generalize hl : pre ++ rest = l at h
    cases h with
    | mk p b seq cs l o hp hs =>
      have hx : x = .fetched p := by rw [hc] at hl; simp at hl; exact hl.1
      have hmem : p ∈ fetches pre := by rw [hc, hx]; simp [fetches]
      have hq : seq = none := by
        cases hp with
        | frame h n o0 o1 want hw hacc hlen hb hwant _ _ _ =>
          cases want with
          | false => rfl
          | true => exact absurd (hwant.1 rfl) (hn p hmem h ⟨hw, hacc, n, hlen, hb⟩)
        | noDeviceFrame => rfl
        | noIeeeFrame => rfl
      have h0 : heards (pre ++ rest) = [] := by
        rw [hl, heards_append]
        rw [show heards (.fetched p :: cs) = heards cs from rfl, (Prepared.facts hp).2.2.1, List.nil_append]
        obtain ⟨n, -, -, -, -, -, -, -, hf, -⟩ := SendLog.facts hs
        exact (hf hq).2
      rw [heards_append] at h0
      rw [← hc]
      exact (List.append_eq_nil_iff.1 h0).1

theorem deaf {D : Device} (hD : Sane D) {l : List TxEvent} (h : TransmitLog D l)
    (hn : AwaitsNone D (fetches l)) : heards l = [] := by
  obtain ⟨packages, last, rfl, hp, hl⟩ := h
  rw [fetches_append] at hn
  rw [heards_append, List.append_eq_nil_iff]
  constructor
  · have hn' : AwaitsNone D (fetches packages.flatten) := fun p hm => hn p (List.mem_append_left _ hm)
    clear hl hn
    induction packages with
    | nil => rfl
    | cons r packages ih =>
      rw [List.flatten_cons, fetches_append] at hn'
      rw [List.flatten_cons, heards_append, List.append_eq_nil_iff]
      obtain ⟨o, h⟩ := hp r (by simp)
      exact ⟨package_deaf hD (rest := []) (by rw [List.append_nil]; exact h)
          fun p hm => hn' p (List.mem_append_left _ hm),
        ih (fun r hr => hp r (by simp [hr])) fun p hm => hn' p (List.mem_append_right _ hm)⟩
  · rcases hl with rfl | ⟨rest, o, h⟩
    · rfl
    · exact package_deaf hD h fun p hm => hn p (List.mem_append_right _ hm)

/-- **C102**, in full for a device that awaits no acknowledgements: one that was given no package, or only
packages for which it wants none, such as broadcasts.  Of the frames it passes on it has handed over exactly
those its radio received, in the order received and once per reception; but perhaps for the last. -/
theorem C102_listener (D : Device) (hD : Sane D) {t : List (Ev CallAns)} {o : Fin Empty}
    (he : Exec (runDevice D) t o) (hn : AwaitsNone D (packagesGiven t)) (P : Bytes → Bool)
    (hP : ∀ m, P m = true → FrameFor D m) :
    ∃ pending, pending.length ≤ 1 ∧
      (framesReceived D t).filter P = (framesHanded D t).filter P ++ pending := by
  have h0 := deaf hD (C48_device D hD he) (by rw [fetches_given]; exact hn)
  have e : framesReceived D t = framesHeard D t := by
    rw [framesReceived, framesHeard]
    refine List.filterMap_congr fun e hm => ?_
    cases e with
    | start e => rfl
    | ret e r =>
      obtain ⟨tid, op⟩ := e
      cases tid <;> cases op <;> try rfl
      exfalso
      have : (r.1, r.2) ∈ heards (t.filterMap txEvent) :=
        mem_heards.2 (List.mem_filterMap.2 ⟨_, hm, rfl⟩)
      rw [h0] at this
      cases this
  rw [e]
  exact C102_handed_partial D hD he P hP

/-- A beacon. -/
def beaconFrame : Arr 128 := padded (12 :: ({ toAll with o0 := 0x40 } : Header).bytes)

set_option maxRecDepth 100000 in
/-- Non-vacuity: a device that has transmitted a beacon awaits no acknowledgement. -/
example : ∃ t, Exec (runDevice exampleDevice) t .pending ∧ packagesGiven t = [⟨beaconFrame, false⟩] ∧
    (framesOnAir exampleDevice t).length = 1 ∧ AwaitsNone exampleDevice (packagesGiven t) := by
  obtain ⟨t, h1, h2⟩ := poll_outcome serving 40 (runDevice exampleDevice)
    ([⟨beaconFrame, false⟩], ⟨none, none, none, true⟩) []
  rw [List.nil_append] at h1
  have e : packagesGiven t = [⟨beaconFrame, false⟩] := by rw [← h1]; rfl
  refine ⟨t, outcome_pending h2, e, by rw [← h1]; rfl, ?_⟩
  rw [e]
  intro p hp h hh hw
  obtain rfl := List.mem_singleton.1 hp
  obtain ⟨-, -, n, e1, e2⟩ := hh
  have hn : exampleDevice.format.frameLen beaconFrame.1 = some 12 := rfl
  rw [hn] at e1
  cases e1
  have hd : exampleDevice.format.data beaconFrame.1 12 = 0x40 :: 0x98 :: _ := rfl
  rw [hd] at e2
  simp only [Header.bytes, List.append_assoc, List.cons_append, List.nil_append, List.cons.injEq] at e2
  have hf : h.fc = decodeFc 0x40 0x98 := by
    show decodeFc _ _ = _
    rw [← e2.1, ← e2.2.1]
  have := hw.1
  rw [hf] at this
  revert this
  decide

/-! ## What is lost -/

/-- The full claim: also what the radio receives for the transmit task is handed over. -/
def C102_statement : Prop :=
  ∀ (D : Device), Sane D → ∀ (t : List (Ev CallAns)) (o : Fin Empty), Exec (runDevice D) t o →
    ∀ P : Bytes → Bool, (∀ m, P m = true → FrameFor D m) →
      ∃ pending, pending.length ≤ 1 ∧
        (framesReceived D t).filter P = (framesHanded D t).filter P ++ pending

/-- A transmit task that hears several frames while it waits for its acknowledgement. -/
def distracted : Prog.World CallAns (List (Arr 128) × Script) where
  start e w := match e with
    | (.tx, .radioReceive _) => match w.1 with
      | b :: l => (some (true, b), (l, w.2))
      | [] => (none, w)
    | e => ((deafSender.start e w.2).1, (w.1, (deafSender.start e w.2).2))
  poll _ w := (none, w)

theorem toAll_frameFor : FrameFor exampleDevice toAll.bytes := by
  refine ⟨toAll, rfl, ?_, ?_, ?_⟩
  · refine ⟨by decide, ?_⟩
    show _ = _ ∧ _ ∧ _
    decide
  · exact ⟨by decide, by decide, 0x41, 0x98, _, rfl, by decide, by decide, by decide, by decide,
      by decide, by decide⟩
  · exact ⟨.inl ⟨.inr rfl, .inl rfl⟩, by decide⟩

set_option maxRecDepth 100000 in
/-- It is false: a device that waits for an acknowledgement drops the other frames it receives. -/
theorem C102_false : ¬ C102_statement := by
  intro hs
  obtain ⟨t, h1, h2⟩ := poll_outcome distracted 40 (runDevice exampleDevice)
    ([toAllFrame, toAllFrame], ⟨some examplePackage, none, none, true⟩) []
  rw [List.nil_append] at h1
  have sane : Sane exampleDevice := ⟨lengthFormat_lawful, by decide, by decide, by decide, by decide⟩
  obtain ⟨pending, k1, k2⟩ := hs exampleDevice sane t _ (outcome_pending h2) (· == toAll.bytes)
    (fun m hm => by obtain rfl := eq_of_beq hm; exact toAll_frameFor)
  have e1 : framesReceived exampleDevice t = [toAll.bytes, toAll.bytes] := by rw [← h1]; rfl
  have e2 : framesHanded exampleDevice t = [] := by rw [← h1]; rfl
  rw [e1, e2] at k2
  have := congrArg List.length k2
  simp at this
  omega

end Dot15d4.Props
