import Verif.Spec.Ordered
import Verif.Props.Copies

/-! # C101: packages are handed over in the order given -/

namespace Dot15d4.Props
open Dot15d4 Out Spec Csma

theorem frameInside_some {F : RadioFormat} {b : Arr 128} {m : Bytes} :
    frameInside F b = some m ↔ FrameIn F b m := by
  simp [frameInside, FrameIn, Option.map_eq_some_iff]

/-- What a package gets on the air: one buffer, again and again. -/
theorem package_onAir {D : Device} (hr : 1 ≤ D.consts.maxFrameRetries) {pre rest : List TxEvent}
    {o : TxOutcome} (h : PackageLog D (pre ++ rest) o) (hne : pre ≠ []) :
    ∃ p b q cs k, fetches pre = [p] ∧ Prepared D p.buffer b q cs ∧ onAir pre = List.replicate k b ∧
      k ≤ if q = none then 1 else D.consts.maxFrameRetries := by
  generalize hl : pre ++ rest = l at h
  obtain ⟨p', -, -, -, -, hf, -⟩ := C48_package hr h
  cases h with
  | mk p b seq cs l o hp hs =>
  have h0 : attempts (.fetched p :: cs) = [] := (Prepared.facts hp).1
  have hair : Airs (.fetched p :: cs ++ l) (if seq = none then 1 else D.consts.maxFrameRetries) := by
    have := SendLog.airs hs hr
    rw [Nat.add_sub_cancel] at this
    exact (airs_quiet h0).append this (e := 0) (by rw [onAir_quiet h0]; exact Nat.le_refl 0)
      (Nat.zero_le _) (Nat.le_of_eq (Nat.zero_add _))
  have hlen := hair pre ⟨rest, hl⟩
  have hb : ∀ x ∈ onAir pre, x = b := by
    intro x hx
    have hx := (onAir_attempts pre).subset hx
    obtain ⟨y, hy, rfl⟩ := List.mem_map.1 hx
    have hy : y ∈ attempts (.fetched p :: cs ++ l) := by
      rw [← hl, attempts_append]; exact List.mem_append_left _ hy
    obtain ⟨-, -, hq, -⟩ := SendLog.facts hs
    rw [attempts_append, h0] at hy
    rw [hq y hy]
  cases pre with
  | nil => exact absurd rfl hne
  | cons e pre =>
    rw [← hl, fetches_append] at hf
    rw [List.cons_append, List.cons_append] at hl
    obtain ⟨rfl, -⟩ := List.cons.inj hl
    rw [fetches_cons_fetched, List.cons_append] at hf
    obtain ⟨-, hf⟩ := List.cons.inj hf
    refine ⟨p, b, seq, cs, _, ?_, hp, List.eq_replicate_iff.2 ⟨rfl, hb⟩, hlen⟩
    rw [fetches_cons_fetched, (List.append_eq_nil_iff.1 hf).1]

/-- So the frame made of it, at most as often as allowed. -/
theorem package_upTo {D : Device} (hD : Sane D) {pre rest : List TxEvent} {o : TxOutcome}
    (h : PackageLog D (pre ++ rest) o) (hne : pre ≠ []) :
    ∃ p f, fetches pre = [p] ∧ MakesOf D p f ∧
      List.Sublist ((onAir pre).filterMap (frameInside D.format)) (upTo D f) := by
  obtain ⟨p, b, q, cs, k, h1, h2, h3, h4⟩ := package_onAir hD.retries h hne
  refine ⟨p, _, h1, ⟨b, q, cs, h2, rfl⟩, ?_⟩
  rw [h3]
  cases hf : frameInside D.format b with
  | none =>
    rw [List.filterMap_replicate_of_none hf]
    exact List.nil_sublist _
  | some m =>
    rw [List.filterMap_replicate_of_some hf, upTo]
    refine List.replicate_sublist_replicate m |>.2 ?_
    have := hD.retries
    split
    · split at h4 <;> omega
    · rename_i ha
      exact h4.trans (limits_once hD ha _ _ _ _ h2 (frameInside_some.1 hf))

theorem onAir_frames_append (F : RadioFormat) (l l' : List TxEvent) :
    List.Sublist ((onAir (l ++ l')).filterMap (frameInside F))
      ((onAir l).filterMap (frameInside F) ++ (onAir l').filterMap (frameInside F)) := by
  rw [← List.filterMap_append]
  exact (onAir_append l l').filterMap _

theorem transmitLog_upTo {D : Device} (hD : Sane D) {l : List TxEvent} (h : TransmitLog D l) :
    ∃ made, List.Forall₂ (MakesOf D) (fetches l) made ∧
      List.Sublist ((onAir l).filterMap (frameInside D.format)) (made.flatMap (upTo D)) := by
  obtain ⟨packages, last, rfl, hpk, hlast⟩ := h
  have join : ∀ l l' : List TxEvent,
      (∃ made, List.Forall₂ (MakesOf D) (fetches l) made ∧
        List.Sublist ((onAir l).filterMap (frameInside D.format)) (made.flatMap (upTo D))) →
      (∃ made, List.Forall₂ (MakesOf D) (fetches l') made ∧
        List.Sublist ((onAir l').filterMap (frameInside D.format)) (made.flatMap (upTo D))) →
      ∃ made, List.Forall₂ (MakesOf D) (fetches (l ++ l')) made ∧
        List.Sublist ((onAir (l ++ l')).filterMap (frameInside D.format)) (made.flatMap (upTo D)) := by
    rintro l l' ⟨m, h1, h2⟩ ⟨m', h1', h2'⟩
    refine ⟨m ++ m', ?_, ?_⟩
    · rw [fetches_append]; exact List.rel_append h1 h1'
    · rw [List.flatMap_append]
      exact (onAir_frames_append _ l l').trans (h2.append h2')
  have one : ∀ pre rest o, PackageLog D (pre ++ rest) o →
      ∃ made, List.Forall₂ (MakesOf D) (fetches pre) made ∧
        List.Sublist ((onAir pre).filterMap (frameInside D.format)) (made.flatMap (upTo D)) := by
    intro pre rest o h
    by_cases hne : pre = []
    · subst hne; exact ⟨[], .nil, List.nil_sublist _⟩
    · obtain ⟨p, f, h1, h2, h3⟩ := package_upTo hD h hne
      refine ⟨[f], by rw [h1]; exact .cons h2 .nil, ?_⟩
      rw [List.flatMap_singleton]
      exact h3
  refine join _ _ ?_ ?_
  · induction packages with
    | nil => exact ⟨[], .nil, List.nil_sublist _⟩
    | cons r packages ih =>
      obtain ⟨o, h⟩ := hpk r (by simp)
      rw [List.flatten_cons]
      exact join _ _ (one r [] o (by rw [List.append_nil]; exact h))
        (ih fun r hr => hpk r (by simp [hr]))
  · rcases hlast with rfl | ⟨rest, o, h⟩
    · exact ⟨[], .nil, List.nil_sublist _⟩
    · exact one _ _ _ h

theorem fetches_given (t : List (Ev CallAns)) :
    fetches (t.filterMap txEvent) = packagesGiven t := by
  rw [fetches, List.filterMap_filterMap, packagesGiven]
  refine List.filterMap_congr fun e _ => ?_
  cases e with
  | start e => obtain ⟨tid, op⟩ := e; cases tid <;> cases op <;> rfl
  | ret e r =>
    obtain ⟨tid, op⟩ := e
    cases tid <;> cases op <;> try rfl
    simp only [txEvent]
    split <;> rfl

/-- **C101**, the sender.  The frames a device gets on the air are, in this order, those it makes of the
packages it was given: each at most `MAC_MAX_FRAME_RETRIES` times in a row, and once if it requests no
acknowledgement. -/
theorem C101_sent (D : Device) (hD : Sane D) {t : List (Ev CallAns)} {o : Fin Empty}
    (he : Exec (runDevice D) t o) :
    ∃ made, List.Forall₂ (MakesOf D) (packagesGiven t) made ∧
      List.Sublist (framesOnAir D t) (made.flatMap (upTo D)) := by
  have := transmitLog_upTo hD (C48_device D hD he)
  rwa [fetches_given] at this

/-- **C101**, the receiver.  A device hands over some of the frames it received, in the order received. -/
theorem C101_handed (D : Device) (hD : Sane D) {t : List (Ev CallAns)} {o : Fin Empty}
    (he : Exec (runDevice D) t o) : List.Sublist (framesHanded D t) (framesReceived D t) := by
  obtain ⟨handled, pending, h1, -, h2⟩ := C70_in_order_partial D hD he
  have e1 : framesHanded D t =
      (deliveries (t.filterMap rxEvent)).filterMap fun fb => frameInside D.format fb.buffer := by
    rw [deliveries, List.filterMap_filterMap, List.filterMap_filterMap, framesHanded]
    refine List.filterMap_congr fun e hm => ?_
    have hc := (C59_calls D he e hm).2.1
    cases e with
    | start e =>
      obtain ⟨tid, op⟩ := e
      cases tid <;> cases op <;> first
        | rfl
        | exact absurd (hc _ _ rfl).1 (by decide)
    | ret e r =>
      obtain ⟨tid, op⟩ := e
      cases tid <;> cases op <;> try rfl
      simp only [rxEvent]
      split <;> rfl
  have e2 : List.Sublist ((receptions (t.filterMap rxEvent)).filterMap (frameInside D.format))
      (framesReceived D t) := by
    rw [receptions, List.filterMap_filterMap, List.filterMap_filterMap, framesReceived]
    clear he h1 h2 e1
    induction t with
    | nil => exact List.nil_sublist _
    | cons e t ih =>
      rw [List.filterMap_cons, List.filterMap_cons]
      cases e with
      | start e => obtain ⟨tid, op⟩ := e; cases tid <;> cases op <;> exact ih
      | ret e r =>
        obtain ⟨tid, op⟩ := e
        cases tid <;> cases op <;> try exact ih
        · simp only [rxEvent, Option.bind]
          split
          · exact ih
          · exact ih.cons _
        · by_cases h : r.1 = true
          · simp only [rxEvent, h, if_true, Option.bind]
            split
            · exact ih
            · exact ih.cons_cons _
          · simp only [rxEvent, h, if_false, Option.bind]
            exact ih
  refine List.Sublist.trans ?_ e2
  rw [e1, h2, h1, wanted, List.filterMap_map]
  refine List.Sublist.trans ((List.filter_sublist (l := handled)).filterMap _) ?_
  exact (List.sublist_append_left handled pending).filterMap _

/-- **C101**.  Of any kind of frame `P`: if a device `R` receives those another device `S` gets on the air in
the order transmitted, none more often, perhaps not all of them, then it hands them over in the order in
which `S` was given the packages: those of one package at most `MAC_MAX_FRAME_RETRIES` times in a row, and
once if they request no acknowledgement; nothing of an earlier package comes after a later one. -/
theorem C101_in_order (S R : Device) (hS : Sane S) (hR : Sane R) {t u : List (Ev CallAns)}
    {o o' : Fin Empty} (ht : Exec (runDevice S) t o) (hu : Exec (runDevice R) u o') (P : Bytes → Bool)
    (hmedium : List.Sublist ((framesReceived R u).filter P) ((framesOnAir S t).filter P)) :
    ∃ made, List.Forall₂ (MakesOf S) (packagesGiven t) made ∧
      List.Sublist ((framesHanded R u).filter P) (made.flatMap (upTo S)) := by
  obtain ⟨made, h1, h2⟩ := C101_sent S hS ht
  exact ⟨made, h1, ((C101_handed R hR hu).filter P).trans
    (hmedium.trans (List.filter_sublist.trans h2))⟩

/-! ## Nothing is skipped -/

theorem onAir_append_eq {l : List TxEvent} (h : ∀ b cfg, l.getLast? ≠ some (.attempt b cfg))
    (l' : List TxEvent) : onAir (l ++ l') = onAir l ++ onAir l' := by
  induction hn : l.length using Nat.strong_induction_on generalizing l with
  | _ n ih =>
  cases l with
  | nil => rfl
  | cons e l =>
    by_cases he : ∀ b cfg, e ≠ .attempt b cfg
    · rw [List.cons_append, onAir_other he, onAir_other he]
      refine ih l.length (by simp at hn; omega) ?_ rfl
      intro b cfg hl
      cases l with
      | nil => cases hl
      | cons x l => exact h b cfg (by rw [List.getLast?_cons_cons]; exact hl)
    · simp only [not_forall, not_not] at he
      obtain ⟨b, cfg, rfl⟩ := he
      cases l with
      | nil => exact absurd rfl (h b cfg)
      | cons e l =>
        have hl : ∀ b cfg, (e :: l).getLast? ≠ some (.attempt b cfg) := fun b cfg hl =>
          h b cfg (by rw [List.getLast?_cons_cons]; exact hl)
        by_cases hf : e = .result false
        · subst hf
          show onAir (l ++ l') = onAir l ++ onAir l'
          refine ih l.length (by simp at hn; omega) ?_ rfl
          intro b cfg hl'
          cases l with
          | nil => cases hl'
          | cons x l => exact hl b cfg (by rw [List.getLast?_cons_cons]; exact hl')
        · have e1 : ∀ t, onAir (.attempt b cfg :: e :: t) = b :: onAir (e :: t) := by
            intro t
            rw [onAir_attempt]
            split
            · rename_i h; cases h; exact absurd rfl hf
            · rfl
          rw [List.cons_append, List.cons_append, e1, e1, List.cons_append]
          exact congrArg _ (ih (e :: l).length (by simp at hn ⊢; omega) hl rfl)

/-- A history that does not end with an attempt of unknown outcome. -/
def Ended (l : List TxEvent) : Prop := ∀ b cfg, l.getLast? ≠ some (.attempt b cfg)

theorem Ended.append {l l' : List TxEvent} (h : Ended l') (hne : l' ≠ []) : Ended (l ++ l') := by
  intro b cfg
  rw [List.getLast?_append_of_ne_nil _ hne]
  exact h b cfg

theorem CcaLog.heard {c : Consts} {channel : PhyChannel} {b : Arr 128} {i : Nat} {held ok : Bool}
    {l : List TxEvent} (h : CcaLog c channel b i held l ok) :
    l ≠ [] ∧ Ended l ∧ (ok = true → b ∈ onAir l) := by
  have tk : ∀ held, Ended (taking held) := fun held => by
    cases held <;> intro b cfg h <;> cases h
  induction h with
  | @sent i held hi =>
    refine ⟨by simp, Ended.append (fun b cfg h => by cases h) (by simp), fun _ => ?_⟩
    rw [onAir_append_eq (tk held)]
    exact List.mem_append_right _ (List.mem_singleton.2 rfl)
  | @failed held =>
    exact ⟨by simp, Ended.append (fun b cfg h => by cases h) (by simp), fun h => by cases h⟩
  | @again i held r l l' ok hi hint hl ih =>
    obtain ⟨h1, h2, h3⟩ := ih
    refine ⟨by simp, h2.append h1, fun hok => ?_⟩
    have e : Ended (taking held ++ [.attempt b ⟨channel, true⟩, .result false, .unlocked] ++ l) := by
      rcases interleave_21 hint with rfl | rfl | rfl <;>
        exact Ended.append (fun b cfg h => by cases h) (by simp)
    rw [onAir_append_eq e]
    exact List.mem_append_right _ (h3 hok)

theorem SendLog.heard {D : Device} {b : Arr 128} {seq : Option Byte} {i : Nat} {l : List TxEvent}
    {o : TxOutcome} (h : SendLog D b seq i l o) : l ≠ [] ∧ Ended l ∧ (o ≠ .ccaFailed → b ∈ onAir l) := by
  have one : ∀ {l l' : List TxEvent}, CcaLog D.consts D.config.channel b 1 false l true →
      b ∈ onAir (l ++ l') := by
    intro l l' hl
    obtain ⟨-, h2, h3⟩ := CcaLog.heard hl
    rw [onAir_append_eq h2]
    exact List.mem_append_left _ (h3 rfl)
  induction h with
  | ccaFailed hl =>
    exact ⟨by simp, Ended.append (fun b cfg h => by cases h) (by simp), fun h => absurd rfl h⟩
  | sent hs hl =>
    exact ⟨by simp, Ended.append (fun b cfg h => by cases h) (by simp), fun _ => one hl⟩
  | acked hs hl ha =>
    refine ⟨by simp, Ended.append (fun b cfg h => by cases h) (by simp), fun _ => ?_⟩
    rw [List.append_assoc]; exact one hl
  | ackFailed hs hl ha =>
    refine ⟨by simp, Ended.append (fun b cfg h => by cases h) (by simp), fun _ => ?_⟩
    rw [List.append_assoc]; exact one hl
  | retry hs hl ha hlt _ ih =>
    refine ⟨by simp, ih.2.1.append ih.1, fun _ => ?_⟩
    rw [List.append_assoc, List.append_assoc]; exact one hl

/-- A package that was dealt with, and for which the channel was clear, was on the air. -/
theorem package_heard {D : Device} (hD : Sane D) {l : List TxEvent} {o : TxOutcome}
    (h : PackageLog D l o) (hno : .report .ccaFailed ∉ l) :
    Ended l ∧ ∃ p f, fetches l = [p] ∧ MakesOf D p f ∧
      List.Sublist (f.toList) ((onAir l).filterMap (frameInside D.format)) ∧
      List.Sublist ((onAir l).filterMap (frameInside D.format)) (upTo D f) := by
  have hne : l ≠ [] := by cases h; simp
  have ho : o ≠ .ccaFailed := by
    rintro rfl
    obtain ⟨-, -, -, -, -, -, -, -, -, -, -, -, -, -, hrep, -⟩ := C48_package hD.retries h
    have : DriverError.ccaFailed ∈ (reports l).filter terminal := by
      rw [hrep]; exact List.mem_singleton.2 rfl
    have := (List.mem_filter.1 this).1
    obtain ⟨ev, h1, h2⟩ := List.mem_filterMap.1 this
    cases ev <;> cases h2
    exact hno h1
  have hE : Ended l ∧ ∃ p b q cs, l.head? = some (.fetched p) ∧ Prepared D p.buffer b q cs ∧
      b ∈ onAir l := by
    cases h with
    | mk p b seq cs l o hp hs =>
    obtain ⟨h1, h2, h3⟩ := SendLog.heard hs
    refine ⟨h2.append h1, p, b, seq, cs, rfl, hp, ?_⟩
    have : Ended (.fetched p :: cs) := by
      intro b cfg hl
      cases hp <;> cases hl
    rw [onAir_append_eq this]
    exact List.mem_append_right _ (h3 ho)
  refine ⟨hE.1, ?_⟩
  obtain ⟨-, p', b', q', cs', hd, -, hb⟩ := hE
  obtain ⟨p, b, q, cs, k, h1, h2, h3, h4⟩ := package_onAir (rest := []) hD.retries
    (by rw [List.append_nil]; exact h) hne
  obtain ⟨p2, f, k1, k2, k3⟩ := package_upTo (rest := []) hD (by rw [List.append_nil]; exact h) hne
  refine ⟨p, frameInside D.format b, h1, ⟨b, q, cs, h2, rfl⟩, ?_, ?_⟩
  · rw [h3] at hb ⊢
    have hk : k ≠ 0 := by rintro rfl; cases hb
    cases hf : frameInside D.format b with
    | none => exact List.nil_sublist _
    | some m =>
      rw [List.filterMap_replicate_of_some hf]
      exact List.singleton_sublist.2 (List.mem_replicate.2 ⟨hk, rfl⟩)
  · rw [h3]
    cases hf : frameInside D.format b with
    | none =>
      rw [List.filterMap_replicate_of_none hf]
      exact List.nil_sublist _
    | some m =>
      rw [List.filterMap_replicate_of_some hf, upTo]
      refine List.replicate_sublist_replicate m |>.2 ?_
      have := hD.retries
      split
      · split at h4 <;> omega
      · rename_i ha
        exact h4.trans (limits_once hD ha _ _ _ _ h2 (frameInside_some.1 hf))

theorem packages_heard {D : Device} (hD : Sane D) {packages : List (List TxEvent)}
    (hpk : ∀ r ∈ packages, ∃ o, PackageLog D r o) (hno : .report .ccaFailed ∉ packages.flatten) :
    Ended packages.flatten ∧ ∃ made, List.Forall₂ (MakesOf D) (fetches packages.flatten) made ∧
      List.Sublist (made.filterMap id) ((onAir packages.flatten).filterMap (frameInside D.format)) ∧
      List.Sublist ((onAir packages.flatten).filterMap (frameInside D.format)) (made.flatMap (upTo D)) := by
  induction packages with
  | nil => exact ⟨(fun b cfg h => by cases h), [], .nil, List.nil_sublist _, List.nil_sublist _⟩
  | cons r packages ih =>
    rw [List.flatten_cons] at hno ⊢
    obtain ⟨o, h⟩ := hpk r (by simp)
    obtain ⟨g1, p, f, g2, g3, g4, g5⟩ := package_heard hD h fun h => hno (List.mem_append_left _ h)
    obtain ⟨k1, made, k2, k3, k4⟩ := ih (fun r hr => hpk r (by simp [hr]))
      fun h => hno (List.mem_append_right _ h)
    refine ⟨?_, f :: made, ?_, ?_, ?_⟩
    · by_cases hn : packages.flatten = []
      · rw [hn, List.append_nil]; exact g1
      · exact k1.append hn
    · rw [fetches_append, g2]; exact .cons g3 k2
    · rw [onAir_append_eq g1, List.filterMap_append]
      have : (f :: made).filterMap id = f.toList ++ made.filterMap id := by cases f <;> rfl
      rw [this]
      exact g4.append k3
    · rw [onAir_append_eq g1, List.filterMap_append, List.flatMap_cons]
      exact g5.append k4

/-- **C101**, nothing is skipped.  As long as a device has not reported that the channel was never clear,
it got the frames of all its packages on the air, but perhaps of the last, at least once, in the order
given, and each as often as `C101_sent` allows. -/
theorem C101_none_skipped (D : Device) (hD : Sane D) {t : List (Ev CallAns)} {o : Fin Empty}
    (he : Exec (runDevice D) t o) (hno : Ev.start (.tx, .driverError .ccaFailed) ∉ t) :
    ∃ made, List.Forall₂ (MakesOf D) (packagesGiven t) made ∧
      List.Sublist (made.dropLast.filterMap id) (framesOnAir D t) ∧
      List.Sublist (framesOnAir D t) (made.flatMap (upTo D)) := by
  obtain ⟨packages, last, e, hpk, hlast⟩ := C48_device D hD he
  have hno' : .report .ccaFailed ∉ t.filterMap txEvent := by
    intro h
    obtain ⟨ev, h1, h2⟩ := List.mem_filterMap.1 h
    refine hno ?_
    cases ev with
    | start x =>
      obtain ⟨tid, op⟩ := x
      cases tid <;> cases op <;> first | (cases h2; exact h1) | cases h2
    | ret x r =>
      obtain ⟨tid, op⟩ := x
      cases tid <;> cases op <;> try cases h2
      simp only [txEvent] at h2
      split at h2 <;> cases h2
  rw [e] at hno'
  obtain ⟨k1, made, k2, k3, k4⟩ := packages_heard hD hpk fun h => hno' (List.mem_append_left _ h)
  rw [← fetches_given, framesOnAir, e, onAir_append_eq k1, fetches_append, List.filterMap_append]
  by_cases hn : last = []
  · subst hn
    refine ⟨made, ?_, ?_, ?_⟩
    · rw [show fetches [] = [] from rfl, List.append_nil]; exact k2
    · exact (((List.dropLast_sublist made).filterMap id).trans k3).trans (List.sublist_append_left _ _)
    · rw [show onAir [] = [] from rfl, List.filterMap_nil, List.append_nil]; exact k4
  · rcases hlast with h | ⟨rest, o, h⟩
    · exact absurd h hn
    · obtain ⟨p, f, g1, g2, g3⟩ := package_upTo hD h hn
      refine ⟨made ++ [f], ?_, ?_, ?_⟩
      · rw [g1]; exact List.rel_append k2 (.cons g2 .nil)
      · rw [List.dropLast_concat]
        exact k3.trans (List.sublist_append_left _ _)
      · rw [List.flatMap_append, List.flatMap_singleton]
        exact k4.append g3

/-! ## Examples -/

/-- An upper layer with several packages, one after the other, and nobody who acknowledges. -/
def serving : Prog.World CallAns (List FrameBuffer × Script) where
  start e w := match e with
    | (.tx, .driverTransmit) => match w.1 with
      | p :: l => (some p, (l, w.2))
      | [] => (none, w)
    | e => ((deafSender.start e w.2).1, (w.1, (deafSender.start e w.2).2))
  poll _ w := (none, w)

set_option maxRecDepth 100000 in
/-- Non-vacuity: a broadcast frame and a frame to one device that is never acknowledged; the first is
transmitted once, the second three times.  The receiver misses one of these and hands over the others. -/
example : ∃ t u, Exec (runDevice exampleDevice) t .pending ∧ Exec (runDevice exampleDevice) u .pending ∧
    List.Sublist ((framesReceived exampleDevice u).filter fun _ => true)
      ((framesOnAir exampleDevice t).filter fun _ => true) ∧
    packagesGiven t = [⟨toAllFrame, false⟩, examplePackage] ∧
    MakesOf exampleDevice ⟨toAllFrame, false⟩ (some toAll.bytes) ∧
    MakesOf exampleDevice examplePackage (some exchanged.bytes) ∧
    framesOnAir exampleDevice t = [toAll.bytes, exchanged.bytes, exchanged.bytes, exchanged.bytes] ∧
    Ev.start (Tid.tx, Op.driverError .ccaFailed) ∉ t ∧
    framesHanded exampleDevice u = [toAll.bytes, exchanged.bytes, exchanged.bytes] := by
  obtain ⟨t, h1, h2⟩ := poll_outcome serving 60 (runDevice exampleDevice)
    ([⟨toAllFrame, false⟩, examplePackage], ⟨none, none, none, true⟩) []
  obtain ⟨u, k1, k2⟩ := poll_outcome hearing 20 (runDevice exampleDevice)
    ([toAllFrame, askingFrame, askingFrame], ⟨none, none, none, true⟩) []
  rw [List.nil_append] at h1 k1
  have hf : FrameIn exampleDevice.format askingFrame exchanged.bytes := ⟨12, rfl, rfl⟩
  have hf' : FrameIn exampleDevice.format toAllFrame toAll.bytes := ⟨12, rfl, rfl⟩
  have e2 : framesOnAir exampleDevice t =
      [toAll.bytes, exchanged.bytes, exchanged.bytes, exchanged.bytes] := by rw [← h1]; rfl
  refine ⟨t, u, outcome_pending h2, outcome_pending k2, ?_, ?_, ⟨_, _, _, toAll_prepared,
    frameInside_some.2 hf'⟩, ⟨_, _, _, examplePackage_prepared, frameInside_some.2 hf⟩, e2, ?_, ?_⟩
  · have e1 : framesReceived exampleDevice u = [toAll.bytes, exchanged.bytes, exchanged.bytes] := by
      rw [← k1]; rfl
    rw [e1, e2]
    exact .cons_cons _ (.cons_cons _ (.cons_cons _ (List.nil_sublist _)))
  · rw [← h1]; rfl
  · intro h
    have : DriverError.ccaFailed ∈ reports (t.filterMap txEvent) :=
      List.mem_filterMap.2 ⟨_, List.mem_filterMap.2 ⟨_, h, rfl⟩, rfl⟩
    have e : DriverError.ccaFailed ∉ reports (t.filterMap txEvent) := by
      rw [← h1]
      decide
    exact e this
  · rw [← k1]; rfl

end Dot15d4.Props
