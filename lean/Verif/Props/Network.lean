import Verif.Props.Exchange
import Verif.Spec.Network

/-!
# C78: an acknowledged package was received
-/

namespace Dot15d4.Props
open Dot15d4 Out Spec Csma

/-! ## Headers and their octets -/

/-- Two headers with the same octets that both have their sequence number where the frame control
field says have the same one. -/
theorem same_seq {h h' : Header} (hw : h.seq.isSome = !h.fc.seqNoSuppression)
    (hw' : h'.seq.isSome = !h'.fc.seqNoSuppression) (e : h.bytes = h'.bytes) :
    h.seq = h'.seq ∧ h.fc = h'.fc := by
  simp only [Header.bytes, List.append_assoc, List.cons_append, List.nil_append,
    List.cons.injEq] at e
  obtain ⟨e0, e1, e2⟩ := e
  have hfc : h.fc = h'.fc := by
    show decodeFc _ _ = decodeFc _ _
    rw [e0, e1]
  refine ⟨?_, hfc⟩
  have hs : h.seq.isSome = h'.seq.isSome := by rw [hw, hw', hfc]
  cases hq : h.seq with
  | none =>
    rw [hq] at hs
    cases hq' : h'.seq with
    | none => rfl
    | some x => rw [hq'] at hs; cases hs
  | some x =>
    rw [hq] at hs
    cases hq' : h'.seq with
    | none => rw [hq'] at hs; cases hs
    | some y =>
      rw [hq, hq'] at e2
      simp only [Option.toList_some, List.cons_append, List.nil_append, List.cons.injEq] at e2
      rw [e2.1]

theorem overwrite_length (D : Device) (h : Header) : (h.overwrite D).bytes.length = h.bytes.length := by
  cases ha : h.addressing with
  | none => simp [Header.bytes, Header.overwrite, ha]
  | some a =>
    have key : ∀ (on : Bool) (ours : BitVec 16) (x : Option (BitVec 16)),
        (overwritten on ours x).isSome = x.isSome := by
      intro on ours x; cases x <;> rfl
    have hl : ∀ x y : Option (BitVec 16), x.isSome = y.isSome →
        (Spec.panBytes x).length = (Spec.panBytes y).length := by
      intro x y hxy
      cases x <;> cases y <;> simp_all [Spec.panBytes]
    have k1 := hl _ _ (key D.config.overwriteDstPanId D.consts.panId a.dstPan)
    have k2 := hl _ _ (key D.config.overwriteSrcPanId D.consts.panId a.srcPan)
    simp [Header.bytes, Header.overwrite, ha, addressingBytes, Addressing.bytes, Spec.addressing, k1, k2]

theorem frameIn_unique {F : RadioFormat} {b : Arr 128} {m m' : Bytes} (h : FrameIn F b m)
    (h' : FrameIn F b m') : m = m' := by
  obtain ⟨n, h1, h2⟩ := h
  obtain ⟨n', h1', h2'⟩ := h'
  rw [h1] at h1'; cases h1'
  rw [← h2, h2']

theorem holds_frameIn {F : RadioFormat} {b : Arr 128} {h : Header} (hh : Holds F b.1 h) :
    FrameIn F b h.bytes := by
  obtain ⟨-, -, n, h1, h2⟩ := hh
  exact ⟨n, h1, h2⟩

/-- A transmitted frame has the sequence number of the package it was made from. -/
theorem prepared_numbered (D : Device) (hD : D.format.Lawful) {p : FrameBuffer} {b : Arr 128}
    {q : Option Byte} {cs : List TxEvent} (hp : Prepared D p.buffer b q cs) {h : Header}
    (hw : h.WellFormed) (hacc : Acceptable h.bytes) (hb : FrameIn D.format b h.bytes) {s : Byte}
    (hs : h.seq = some s) : Numbered D s p := by
  cases hp with
  | noDeviceFrame hn e =>
    subst e
    obtain ⟨n, h1, -⟩ := hb
    rw [hn] at h1; cases h1
  | noIeeeFrame n hn hno e =>
    subst e
    obtain ⟨n', h1, h2⟩ := hb
    rw [hn] at h1; cases h1
    rw [h2] at hno
    exact absurd hacc hno
  | frame h0 n o0 o1 want hw0 hacc0 hn hb0 hwant hd hc hbuf =>
    refine ⟨h0, ⟨hw0, hacc0, n, hn, hb0⟩, ?_⟩
    have hl0 : h0.bytes.length = n := by
      have e := congrArg List.length hb0
      have hin := hD.frame_inside _ _ hn
      rw [RadioFormat.data, List.length_take, List.length_drop] at e
      omega
    have hl : (({ h0 with o0 := o0, o1 := o1 } : Header).overwrite D).bytes.length = n := by
      rw [overwrite_length, ← hl0]
      simp [Header.bytes]
    have hin : FrameIn D.format b (({ h0 with o0 := o0, o1 := o1 } : Header).overwrite D).bytes := by
      refine ⟨n, ?_, ?_⟩
      · rw [hbuf]; exact hD.frame_stable _ _ _ hn hl
      · rw [hbuf]; exact data_putData _ _ _ _ (hD.frame_inside _ _ hn) hl
    have e := frameIn_unique hin hb
    have := (same_seq (h := ({ h0 with o0 := o0, o1 := o1 } : Header).overwrite D) (h' := h) ?_ hw.1 e).1
    · rw [← hs, ← this]; rfl
    · show h0.seq.isSome = !(decodeFc o0 o1).seqNoSuppression
      rw [hd, hw0.1]

/-! ## Histories -/

theorem mem_ofDevice {ι : Type} [DecidableEq ι] {i : ι} {g : List (ι × Ev CallAns)}
    {e : Ev CallAns} : e ∈ ofDevice i g ↔ (i, e) ∈ g := by
  simp only [ofDevice, List.mem_filterMap]
  constructor
  · rintro ⟨⟨j, e'⟩, h, h2⟩
    split at h2
    · rename_i hj
      cases h2
      simp only at hj
      rw [← hj]; exact h
    · cases h2
  · intro h
    exact ⟨(i, e), h, by simp⟩

theorem ofDevice_append {ι : Type} [DecidableEq ι] (i : ι) (g g' : List (ι × Ev CallAns)) :
    ofDevice i (g ++ g') = ofDevice i g ++ ofDevice i g' := List.filterMap_append

theorem ofDevice_cons {ι : Type} [DecidableEq ι] (i : ι) (e : Ev CallAns)
    (g : List (ι × Ev CallAns)) : ofDevice i ((i, e) :: g) = e :: ofDevice i g := by
  simp [ofDevice]

theorem txEvent_heard {e : Ev CallAns} {ok : Bool} {b : Arr 128}
    (h : txEvent e = some (.heard ok b)) :
    ∃ cfg, e = .ret (.tx, .radioReceive cfg) (ok, b) := by
  cases e with
  | start e =>
    obtain ⟨tid, op⟩ := e
    cases tid <;> cases op <;> simp [txEvent] at h
  | ret e r =>
    obtain ⟨tid, op⟩ := e
    cases tid <;> cases op <;> simp only [txEvent] at h <;> try cases h
    · split at h <;> cases h
    · rename_i cfg
      exact ⟨cfg, rfl⟩

theorem rxEvent_got {e : Ev CallAns} {b : Arr 128} (h : rxEvent e = some (.got b)) :
    ∃ cfg, e = .ret (.rx, .radioReceive cfg) (true, b) := by
  cases e with
  | start e =>
    obtain ⟨tid, op⟩ := e
    cases tid <;> cases op <;> simp [rxEvent] at h
  | ret e r =>
    obtain ⟨tid, op⟩ := e
    cases tid <;> cases op <;> simp only [rxEvent] at h <;> try cases h
    rename_i cfg
    obtain ⟨r1, r2⟩ := r
    cases r1 with
    | false => simp at h
    | true =>
      simp only [if_true, Option.some.injEq, RxEvent.got.injEq] at h
      exact ⟨cfg, by rw [h]⟩

theorem mem_heards {l : List TxEvent} {ok : Bool} {b : Arr 128} :
    (ok, b) ∈ heards l ↔ .heard ok b ∈ l := by
  simp only [heards, List.mem_filterMap]
  constructor
  · rintro ⟨x, h, h2⟩
    cases x <;> simp at h2
    obtain ⟨rfl, rfl⟩ := h2
    exact h
  · intro h
    exact ⟨_, h, rfl⟩

theorem mem_attempts {l : List TxEvent} {b : Arr 128} {cfg : TxConfig} :
    (b, cfg) ∈ attempts l ↔ .attempt b cfg ∈ l := by
  simp only [attempts, List.mem_filterMap]
  constructor
  · rintro ⟨x, h, h2⟩
    cases x <;> simp at h2
    obtain ⟨rfl, rfl⟩ := h2
    exact h
  · intro h
    exact ⟨_, h, rfl⟩

/-- What a device transmits was made from a package it was given. -/
theorem attempt_origin {D : Device} (hr : 1 ≤ D.consts.maxFrameRetries) {r rest : List TxEvent}
    {o : TxOutcome} (h : PackageLog D (r ++ rest) o) {c : Arr 128} {cfg : TxConfig}
    (hc : .attempt c cfg ∈ r) :
    ∃ p q cs, Prepared D p.buffer c q cs ∧ p ∈ fetches r := by
  obtain ⟨p, b, q, cs, n, -, h2, h3, -, h5, -⟩ := C48_package hr h
  refine ⟨p, q, cs, ?_, ?_⟩
  · have := h5 (c, cfg) (mem_attempts.2 (List.mem_append_left _ hc))
    rw [(Prod.mk.inj this).1]; exact h3
  · cases r with
    | nil => simp at hc
    | cons x r =>
      simp only [List.cons_append, List.head?_cons, Option.some.injEq] at h2
      rw [h2]; simp [fetches]

theorem transmitLog_origin {D : Device} (hr : 1 ≤ D.consts.maxFrameRetries) {l : List TxEvent}
    (h : TransmitLog D l) {c : Arr 128} {cfg : TxConfig} (hc : .attempt c cfg ∈ l) :
    ∃ p q cs, Prepared D p.buffer c q cs ∧ p ∈ fetches l := by
  obtain ⟨packages, last, rfl, hp, hl⟩ := h
  rw [fetches_append]
  rcases List.mem_append.1 hc with hc | hc
  · obtain ⟨r, h1, h2⟩ := List.mem_flatten.1 hc
    obtain ⟨o, ho⟩ := hp r h1
    obtain ⟨p, q, cs, h3, h4⟩ := attempt_origin (rest := []) hr (by simpa using ho) h2
    refine ⟨p, q, cs, h3, List.mem_append_left _ ?_⟩
    simp only [fetches, List.mem_filterMap] at h4 ⊢
    obtain ⟨x, h5, h6⟩ := h4
    exact ⟨x, List.mem_flatten.2 ⟨r, h1, h5⟩, h6⟩
  · rcases hl with rfl | ⟨rest, o, ho⟩
    · simp at hc
    · obtain ⟨p, q, cs, h3, h4⟩ := attempt_origin hr ho hc
      exact ⟨p, q, cs, h3, List.mem_append_right _ h4⟩

/-- **C78**.  In every history of a network of devices: device `S` was given the package `p`, made `b`
of it and transmitted it, awaiting the acknowledgement of `s`, and that ended as acknowledged.  If no
other package with the sequence number `s` was given to a device of the network, then another device
`R` received the frame that is in `b` after `S` began to transmit it, did not drop it - so it is for
`R`, unless `R` passes on everything -, acknowledged it, and `S` received an acknowledgement after
that.

Missing: the condition on the sequence numbers, without which this is false (`C78_false`). -/
theorem C78_received_partial {ι : Type} [DecidableEq ι] (D : ι → Device) (hD : ∀ i, Sane (D i))
    {g : List (ι × Ev CallAns)} (hg : Network D g) {S : ι}
    {earlier later : List (List TxEvent)} {last : List TxEvent} {p : FrameBuffer} {b : Arr 128}
    {s : Byte} {cs l : List TxEvent} (hp : Prepared (D S) p.buffer b (some s) cs)
    (hsend : SendLog (D S) b (some s) 1 l .acked)
    (hsplit : (ofDevice S g).filterMap txEvent =
      earlier.flatten ++ (.fetched p :: cs ++ l) ++ (later.flatten ++ last))
    (h1 : ∀ q ∈ earlier, ∃ o, PackageLog (D S) q o) (h2 : ∀ q ∈ later, ∃ o, PackageLog (D S) q o)
    (h3 : last = [] ∨ ∃ rest o, PackageLog (D S) (last ++ rest) o)
    (hother : ∀ j q, j ≠ S → q ∈ fetches ((ofDevice j g).filterMap txEvent) → ¬ Numbered (D j) s q)
    (hbefore : ∀ q ∈ fetches earlier.flatten, ¬ Numbered (D S) s q)
    (hafter : ∀ q ∈ fetches (later.flatten ++ last), ¬ Numbered (D S) s q) :
    ∃ (R : ι) (h : Header) (rb a sb : Arr 128) (c1 c2 c3 c4 : _) (g0 g1 g2 g3 g4 : List (ι × Ev CallAns)),
      R ≠ S ∧ FrameIn (D S).format b h.bytes ∧
      Holds (D R).format rb.1 h ∧ PassedOn (D R) h ∧ AcksFrame (D R).config h ∧ h.seq = some s ∧
      CarriesAck (D R).format s a ∧ ValidAck (D S).format s sb ∧
      g = g0 ++ (S, .start (.tx, .radioTransmit b c1)) :: (g1 ++
        (R, .ret (.rx, .radioReceive c2) (true, rb)) :: (g2 ++
        (R, .start (.rx, .radioTransmit a c3)) :: (g3 ++
        (S, .ret (.tx, .radioReceive c4) (true, sb)) :: g4))) := by
  -- what S took for the acknowledgement
  obtain ⟨n0, -, i2, -, -, -, -, -, -, i9⟩ := SendLog.facts hsend
  obtain ⟨s', sb, rest, e, hhs, hval, -⟩ := i9
  cases e
  have hmem : TxEvent.heard true sb ∈ (ofDevice S g).filterMap txEvent := by
    rw [hsplit]
    have : TxEvent.heard true sb ∈ l := mem_heards.1 (by rw [hhs]; simp)
    simp [this]
  obtain ⟨ev, hev, hev2⟩ := List.mem_filterMap.1 hmem
  obtain ⟨c4, rfl⟩ := txEvent_heard hev2
  obtain ⟨pre, g4, hpre⟩ := List.append_of_mem (mem_ofDevice.1 hev)
  obtain ⟨ha, hha, hat, has⟩ := hval
  obtain ⟨R, e', hRS, he', htr⟩ := hg.medium pre S _ g4 ha.bytes hpre ⟨rfl, holds_frameIn hha⟩
  obtain ⟨pre1, g3, hpre1⟩ := List.append_of_mem he'
  obtain ⟨oR, hoR⟩ := hg.run R
  have hproj : ofDevice R g = ofDevice R pre1 ++ e' :: ofDevice R (g3 ++
      (S, .ret (.tx, .radioReceive c4) (true, sb)) :: g4) := by
    rw [hpre, hpre1]
    simp only [List.append_assoc, List.cons_append, ofDevice_append, ofDevice_cons]
  cases e' with
  | ret e r => exact htr.elim
  | start e =>
  obtain ⟨tid, op⟩ := e
  cases op with
  | radioTransmit a c3 =>
    cases tid with
    | tx =>
      -- another package: excluded
      exfalso
      have hlog := C48_device (D R) (hD R) hoR
      have hat2 : TxEvent.attempt a c3 ∈ (ofDevice R g).filterMap txEvent := by
        rw [hproj]; simp [txEvent]
      obtain ⟨p', q', cs', hp', hf'⟩ := transmitLog_origin (hD R).retries hlog hat2
      exact hother R p' hRS hf' (prepared_numbered (D R) (hD R).format hp' hha.1 hha.2.1 htr has)
    | rx =>
      have hrx : (ofDevice R g).filterMap rxEvent = (ofDevice R pre1).filterMap rxEvent ++
          .send a c3 :: (ofDevice R (g3 ++
            (S, .ret (.tx, .radioReceive c4) (true, sb)) :: g4)).filterMap rxEvent := by
        rw [hproj]; simp [rxEvent]
      obtain ⟨l0, l2, rb, h, s', e1, -, -, hh, hpass, hacks, hseq, hack⟩ :=
        C65_ack_means_received (D R) (hD R) hoR hrx
      have hss : s' = s := by
        have : ha.bytes = immAck s' := by rw [← hack]; exact htr.symm
        simp only [Header.bytes, has, immAck, Option.toList_some, List.cons_append, List.nil_append,
          List.append_assoc, List.cons.injEq] at this
        exact this.2.2.1.symm
      subst hss
      -- what R received
      have hgot : RxEvent.got rb ∈ (ofDevice R pre1).filterMap rxEvent := by rw [e1]; simp
      obtain ⟨ev2, hev3, hev4⟩ := List.mem_filterMap.1 hgot
      obtain ⟨c2, rfl⟩ := rxEvent_got hev4
      obtain ⟨pre2, g2, hpre2⟩ := List.append_of_mem (mem_ofDevice.1 hev3)
      have hg2 : g = pre2 ++ (R, .ret (.rx, .radioReceive c2) (true, rb)) :: (g2 ++
          (R, .start (.rx, .radioTransmit a c3)) :: (g3 ++
          (S, .ret (.tx, .radioReceive c4) (true, sb)) :: g4)) := by
        rw [hpre, hpre1, hpre2]; simp
      obtain ⟨K, e'', hKR, he'', htr2⟩ := hg.medium pre2 R _ _ h.bytes hg2 ⟨rfl, holds_frameIn hh⟩
      obtain ⟨g0, g1, hpre3⟩ := List.append_of_mem he''
      obtain ⟨oK, hoK⟩ := hg.run K
      have hmemK : e'' ∈ ofDevice K g := mem_ofDevice.2 (by rw [hg2]; simp [he''])
      cases e'' with
      | ret e r => exact htr2.elim
      | start e =>
      obtain ⟨tid, op⟩ := e
      cases op with
      | radioTransmit c c1 =>
        cases tid with
        | rx =>
          -- an acknowledgement is not passed on
          exfalso
          have hsend : RxEvent.send c c1 ∈ (ofDevice K g).filterMap rxEvent :=
            List.mem_filterMap.2 ⟨_, hmemK, rfl⟩
          obtain ⟨m1, m2, hm⟩ := List.append_of_mem hsend
          obtain ⟨-, -, -, -, s2, -, -, -, -, -, -, -, hack2⟩ :=
            C65_ack_means_received (D K) (hD K) hoK hm
          have hb : h.bytes = immAck s2 := by rw [← hack2]; exact htr2.symm
          simp only [Header.bytes, immAck, List.cons_append, List.nil_append,
            List.append_assoc, List.cons.injEq] at hb
          refine hpass.2 ?_
          show (decodeFc _ _).frameType = .ack
          rw [hb.1, hb.2.1]; decide
        | tx =>
          have hat2 : TxEvent.attempt c c1 ∈ (ofDevice K g).filterMap txEvent :=
            List.mem_filterMap.2 ⟨_, hmemK, rfl⟩
          have hnum : ∀ {p' q' cs'}, Prepared (D K) p'.buffer c q' cs' → Numbered (D K) s' p' :=
            fun hp' => prepared_numbered (D K) (hD K).format hp' hh.1 hh.2.1 htr2 hseq
          by_cases hK : K = S
          · subst hK
            have hcb : c = b := by
              rw [hsplit] at hat2
              rcases List.mem_append.1 hat2 with hat2 | hat2
              · rcases List.mem_append.1 hat2 with hat2 | hat2
                · obtain ⟨p', q', cs', hp', hf'⟩ := transmitLog_origin (hD K).retries
                    (l := earlier.flatten) ⟨earlier, [], by simp, h1, .inl rfl⟩ hat2
                  exact absurd (hnum hp') (hbefore p' hf')
                · have q1 := (Prepared.facts hp).1
                  simp only [List.cons_append, List.mem_cons, List.mem_append, reduceCtorEq,
                    false_or] at hat2
                  rcases hat2 with hat2 | hat2
                  · have := mem_attempts.2 hat2
                    rw [q1] at this; cases this
                  · exact (Prod.mk.inj (i2 _ (mem_attempts.2 hat2))).1
              · obtain ⟨p', q', cs', hp', hf'⟩ := transmitLog_origin (hD K).retries
                    (l := later.flatten ++ last) ⟨later, last, rfl, h2, h3⟩ hat2
                exact absurd (hnum hp') (hafter p' hf')
            subst hcb
            exact ⟨R, h, rb, a, sb, c1, c2, c3, c4, g0, g1, g2, g3, g4, hRS, htr2, hh, hpass, hacks,
              hseq, hack, ⟨ha, hha, hat, has⟩, by rw [hg2, hpre3]; simp⟩
          · exfalso
            obtain ⟨p', q', cs', hp', hf'⟩ := transmitLog_origin (hD K).retries
              (C48_device (D K) (hD K) hoK) hat2
            exact hother K p' hK hf' (hnum hp')
      | _ => cases tid <;> exact htr2.elim
  | _ => cases tid <;> exact htr.elim

/-! ## Concrete networks -/

/-- The radioReceptions of a device. -/
def radioReceptions (t : List (Ev CallAns)) : List (Arr 128) :=
  t.filterMap fun e => match e with
    | .ret (_, .radioReceive _) r => if r.1 then some r.2 else none
    | _ => none

theorem radioReceptions_append (t u : List (Ev CallAns)) :
    radioReceptions (t ++ u) = radioReceptions t ++ radioReceptions u := List.filterMap_append

theorem receives_mem {D : Device} {e : Ev CallAns} {t : List (Ev CallAns)} {m : Bytes} (he : e ∈ t)
    (h : Receives D e m) : ∃ b ∈ radioReceptions t, FrameIn D.format b m := by
  cases e with
  | start e => exact h.elim
  | ret e r =>
    obtain ⟨tid, op⟩ := e
    cases op with
    | radioReceive cfg =>
      obtain ⟨h1, h2⟩ := h
      refine ⟨r.2, List.mem_filterMap.2 ⟨_, he, ?_⟩, h2⟩
      show (if r.1 = true then some r.2 else none) = _
      rw [if_pos h1]
    | _ => exact h.elim

theorem split_after {α : Type} {A B pre post : List α} {x : α} (h : A ++ B = pre ++ x :: post)
    (hx : x ∉ A) : ∃ pre', pre = A ++ pre' ∧ B = pre' ++ x :: post := by
  rcases List.append_eq_append_iff.1 h with ⟨c, h1, h2⟩ | ⟨c, h1, h2⟩
  · exact ⟨c, h1, h2⟩
  · cases c with
    | nil => exact ⟨[], by simpa using h1.symm, by simpa using h2.symm⟩
    | cons y c =>
      simp only [List.cons_append, List.cons.injEq] at h2
      obtain ⟨rfl, -⟩ := h2
      exact absurd (by rw [h1]; simp) hx

/-- A network in which first one device acts, then a second one and then a third one (or again the
first one), the second one receiving only what the first one transmits, and the third one what the
second one transmits. -/
theorem network_of_three {ι : Type} [DecidableEq ι] (D : ι → Device) {i0 i1 i2 : ι} (h01 : i0 ≠ i1)
    (h12 : i1 ≠ i2) (t0 t1 t2 : List (Ev CallAns))
    (hrun : ∀ i, ∃ o, Exec (runDevice (D i)) (ofDevice i
      (t0.map (i0, ·) ++ (t1.map (i1, ·) ++ t2.map (i2, ·)))) o)
    (h0 : radioReceptions t0 = [])
    (h1 : ∀ b ∈ radioReceptions t1, ∀ m, FrameIn (D i1).format b m → ∃ e ∈ t0, Transmits (D i0) e m)
    (h2 : ∀ b ∈ radioReceptions t2, ∀ m, FrameIn (D i2).format b m → ∃ e ∈ t1, Transmits (D i1) e m) :
    Network D (t0.map (i0, ·) ++ (t1.map (i1, ·) ++ t2.map (i2, ·))) := by
  refine ⟨hrun, ?_⟩
  intro pre i e post m hg hr
  by_cases hm0 : (i, e) ∈ t0.map (i0, ·)
  · obtain ⟨e', he', h⟩ := List.mem_map.1 hm0
    cases h
    obtain ⟨b, hb, -⟩ := receives_mem he' hr
    rw [h0] at hb; cases hb
  obtain ⟨pre', rfl, hg'⟩ := split_after hg hm0
  by_cases hm1 : (i, e) ∈ t1.map (i1, ·)
  · obtain ⟨e', he', h⟩ := List.mem_map.1 hm1
    cases h
    obtain ⟨b, hb, hf⟩ := receives_mem he' hr
    obtain ⟨e0, h3, h4⟩ := h1 b hb m hf
    exact ⟨i0, e0, h01, List.mem_append_left _ (List.mem_map.2 ⟨e0, h3, rfl⟩), h4⟩
  obtain ⟨pre'', rfl, hg''⟩ := split_after hg' hm1
  have hm2 : (i, e) ∈ t2.map (i2, ·) := by rw [hg'']; simp
  obtain ⟨e', he', h⟩ := List.mem_map.1 hm2
  cases h
  obtain ⟨b, hb, hf⟩ := receives_mem he' hr
  obtain ⟨e1, h3, h4⟩ := h2 b hb m hf
  exact ⟨i1, e1, h12, List.mem_append_right _ (List.mem_append_left _ (List.mem_map.2 ⟨e1, h3, rfl⟩)), h4⟩

theorem ofDevice_map {ι : Type} [DecidableEq ι] (i j : ι) (t : List (Ev CallAns)) :
    ofDevice i (t.map (j, ·)) = if j = i then t else [] := by
  induction t with
  | nil => simp [ofDevice]
  | cons e t ih =>
    by_cases h : j = i
    · subst h
      simp only [if_true] at ih ⊢
      rw [List.map_cons, ofDevice_cons, ih]
    · rw [if_neg h] at ih ⊢
      rw [← ih]
      simp [ofDevice, h]

/-- The acknowledgement of the sequence number 9. -/
def nineAck : Arr 128 := padded [3, 2, 0x10, 9]

theorem txEvent_attempt_mem {t : List (Ev CallAns)} {b : Arr 128} {cfg : TxConfig}
    (h : .attempt b cfg ∈ t.filterMap txEvent) : .start (.tx, .radioTransmit b cfg) ∈ t := by
  obtain ⟨e, he, h⟩ := List.mem_filterMap.1 h
  cases e with
  | start e =>
    obtain ⟨tid, op⟩ := e
    cases tid <;> cases op <;> simp [txEvent] at h
    obtain ⟨rfl, rfl⟩ := h
    exact he
  | ret e r =>
    obtain ⟨tid, op⟩ := e
    cases tid <;> cases op <;> simp only [txEvent] at h <;> try cases h
    split at h <;> cases h

theorem rxEvent_send_mem {t : List (Ev CallAns)} {b : Arr 128} {cfg : TxConfig}
    (h : .send b cfg ∈ t.filterMap rxEvent) : .start (.rx, .radioTransmit b cfg) ∈ t := by
  obtain ⟨e, he, h⟩ := List.mem_filterMap.1 h
  cases e with
  | start e =>
    obtain ⟨tid, op⟩ := e
    cases tid <;> cases op <;> simp [rxEvent] at h
    obtain ⟨rfl, rfl⟩ := h
    exact he
  | ret e r =>
    obtain ⟨tid, op⟩ := e
    cases tid <;> cases op <;> simp only [rxEvent] at h <;> try cases h
    split at h <;> cases h

theorem rxEvent_deliver_mem {t : List (Ev CallAns)} {fb : FrameBuffer}
    (h : .deliver fb ∈ t.filterMap rxEvent) : .start (.rx, .driverReceived fb) ∈ t := by
  obtain ⟨e, he, h⟩ := List.mem_filterMap.1 h
  cases e with
  | start e =>
    obtain ⟨tid, op⟩ := e
    cases tid <;> cases op <;> simp [rxEvent] at h
    subst h
    exact he
  | ret e r =>
    obtain ⟨tid, op⟩ := e
    cases tid <;> cases op <;> simp only [rxEvent] at h <;> try cases h
    split at h <;> cases h

set_option maxRecDepth 20000 in
theorem nineAck_sent (S : Device) (hS : S.format = lengthFormat) (hc : S.consts = {}) (b : Arr 128) :
    SendLog S b (some 9) 1 [.locked, .attempt b ⟨S.config.channel, true⟩, .result true,
      .listen ⟨S.config.channel⟩, .heard true nineAck, .unlocked] .acked := by
  have hv : ValidAck S.format 9 nineAck := immAck_valid S.format 9 _ ⟨3, by rw [hS]; rfl, by rw [hS]; rfl⟩
  refine SendLog.acked (l := [.locked, .attempt b ⟨S.config.channel, true⟩, .result true])
    (l' := [.listen ⟨S.config.channel⟩, .heard true nineAck]) rfl
    (CcaLog.sent (by rw [hc]; decide)) (AckLog.acked (Listening.acked hv)
    (.inl rfl) (.left (.left .nil)))

set_option maxRecDepth 40000 in
/-- A network: one device transmits, a second one with the address 7, 8 receives, hands over and
acknowledges, and the first one hears that. -/
theorem exampleNetwork : ∃ (g : List (Bool × Ev CallAns)), Network (fun _ => exampleDevice) g ∧
    (true, .start (.rx, .driverReceived ⟨askingFrame, true⟩)) ∈ g ∧
    (true, .start (.rx, .radioTransmit nineAck ⟨.c26, false⟩)) ∈ g ∧
    (false, .start (.tx, .radioTransmit askingFrame ⟨.c26, true⟩)) ∈ g ∧
    ∃ l, Prepared exampleDevice examplePackage.buffer askingFrame (some 9) [] ∧
      SendLog exampleDevice askingFrame (some 9) 1 l .acked ∧
      (ofDevice false g).filterMap txEvent =
        ([] : List (List TxEvent)).flatten ++ (.fetched examplePackage :: [] ++ l) ++
          (([] : List (List TxEvent)).flatten ++ []) ∧
      (∀ j q, j ≠ false → q ∈ fetches ((ofDevice j g).filterMap txEvent) →
        ¬ Numbered exampleDevice 9 q) ∧
      fetches ((ofDevice true g).filterMap txEvent) = [] ∧
      ∀ i, (radioReceptions (ofDevice i g)).length ≤ 1 := by
  obtain ⟨t, h1, h2⟩ := poll_outcome scripted 5 (runDevice exampleDevice)
    ⟨some examplePackage, none, some nineAck, true⟩ []
  obtain ⟨u, k1, k2⟩ := poll_outcome scripted 5 (runDevice exampleDevice)
    ⟨none, some askingFrame, none, true⟩ []
  rw [List.nil_append] at h1 k1
  have hx := outcome_pending h2
  have kx := outcome_pending k2
  have hcut : t.filterMap txEvent = [.fetched examplePackage, .locked,
      .attempt askingFrame ⟨.c26, true⟩, .result true, .listen ⟨.c26⟩, .heard true nineAck,
      .unlocked] := by rw [← h1]; rfl
  have hrec : ∃ n, radioReceptions (t.take n) = [] ∧ radioReceptions (t.drop n) = [nineAck] ∧
      .start (.tx, .radioTransmit askingFrame ⟨.c26, true⟩) ∈ t.take n := by
    refine ⟨9, ?_, ?_, ?_⟩
    · rw [← h1]; rfl
    · rw [← h1]; rfl
    · have h3 : (t.take 9).filterMap txEvent = [.fetched examplePackage, .locked,
          .attempt askingFrame ⟨.c26, true⟩] := by rw [← h1]; rfl
      exact txEvent_attempt_mem (by rw [h3]; simp)
  obtain ⟨n, r1, r2, r3⟩ := hrec
  have ku : radioReceptions u = [askingFrame] := by rw [← k1]; rfl
  have k3 : u.filterMap rxEvent = [.got askingFrame, .pause 500, .send nineAck ⟨.c26, false⟩,
      .deliver ⟨askingFrame, true⟩] := by rw [← k1]; rfl
  have ks : .start (.rx, .radioTransmit nineAck ⟨.c26, false⟩) ∈ u :=
    rxEvent_send_mem (by rw [k3]; simp)
  have kd : .start (.rx, .driverReceived ⟨askingFrame, true⟩) ∈ u :=
    rxEvent_deliver_mem (by rw [k3]; simp)
  have kf : fetches (u.filterMap txEvent) = [] := by rw [← k1]; rfl
  refine ⟨(t.take n).map (false, ·) ++ (u.map (true, ·) ++ (t.drop n).map (false, ·)),
    network_of_three _ (by decide) (by decide) _ _ _ ?_ r1 ?_ ?_, by simp [kd], by simp [ks],
    List.mem_append_left _ (List.mem_map.2 ⟨_, r3, rfl⟩), _, examplePackage_prepared,
    nineAck_sent _ rfl rfl _, ?_, ?_, ?_, ?_⟩
  · intro i
    cases i
    · refine ⟨.pending, ?_⟩
      simp only [ofDevice_append, ofDevice_map, if_true, Bool.true_eq_false, if_false,
        List.nil_append, List.take_append_drop]
      exact hx
    · refine ⟨.pending, ?_⟩
      simp only [ofDevice_append, ofDevice_map, if_true, Bool.false_eq_true, if_false,
        List.nil_append, List.append_nil]
      exact kx
  · intro b hb m hm
    rw [ku, List.mem_singleton] at hb
    subst hb
    exact ⟨_, r3, hm⟩
  · intro b hb m hm
    rw [r2, List.mem_singleton] at hb
    subst hb
    exact ⟨_, ks, frameIn_unique (F := lengthFormat) (b := nineAck) ⟨3, rfl, rfl⟩ hm⟩
  · simp only [ofDevice_append, ofDevice_map, if_true, Bool.true_eq_false, if_false,
        List.nil_append, List.take_append_drop]
    rw [hcut]; rfl
  · intro j q hj hq
    cases j
    · exact absurd rfl hj
    · simp only [ofDevice_append, ofDevice_map, if_true, Bool.false_eq_true, if_false,
        List.nil_append, List.append_nil, kf] at hq
      cases hq
  · simp only [ofDevice_append, ofDevice_map, if_true, Bool.false_eq_true, if_false,
      List.nil_append, List.append_nil, kf]
  · intro i
    cases i
    · simp only [ofDevice_append, ofDevice_map, if_true, Bool.true_eq_false, if_false,
        List.nil_append]
      rw [radioReceptions_append, r1, r2]
      decide
    · simp only [ofDevice_append, ofDevice_map, if_true, Bool.false_eq_true, if_false,
        List.nil_append, List.append_nil, ku]
      decide

/-- Non-vacuity for `C78_received_partial`: it applies to the package of this network. -/
example : ∃ (g : List (Bool × Ev CallAns)) (R : Bool) (rb : Arr 128) (c : RxConfig) (h : Header),
    Network (fun _ => exampleDevice) g ∧ R ≠ false ∧
    (R, .ret (.rx, .radioReceive c) (true, rb)) ∈ g ∧ Holds exampleDevice.format rb.1 h ∧
    FrameIn exampleDevice.format askingFrame h.bytes := by
  obtain ⟨g, hg, -, -, -, l, hp, hs, e, ho, -⟩ := exampleNetwork
  obtain ⟨R, h, rb, a, sb, c1, c2, c3, c4, g0, g1, g2, g3, g4, h1, h2, h3, -, -, -, -, -, e'⟩ :=
    C78_received_partial (fun _ : Bool => exampleDevice) (fun _ => exampleDevice_sane) hg hp hs e
      (by simp) (by simp) (.inl rfl) ho (by simp [fetches]) (by simp [fetches])
  exact ⟨g, R, rb, c2, h, hg, h1, by rw [e']; simp, h3, h2⟩

/-- C78, as one would like it: without a condition on the sequence numbers, a package that was
acknowledged was received by some device. -/
def C78_statement : Prop := ∀ (ι : Type) [DecidableEq ι] (D : ι → Device), (∀ i, Sane (D i)) →
  ∀ (g : List (ι × Ev CallAns)), Network D g → ∀ (S : ι) (earlier later : List (List TxEvent))
    (last : List TxEvent) (p : FrameBuffer) (b : Arr 128) (s : Byte) (cs l : List TxEvent),
    Prepared (D S) p.buffer b (some s) cs → SendLog (D S) b (some s) 1 l .acked →
    (ofDevice S g).filterMap txEvent =
      earlier.flatten ++ (.fetched p :: cs ++ l) ++ (later.flatten ++ last) →
    (∀ q ∈ earlier, ∃ o, PackageLog (D S) q o) → (∀ q ∈ later, ∃ o, PackageLog (D S) q o) →
    (last = [] ∨ ∃ rest o, PackageLog (D S) (last ++ rest) o) →
    ∃ (R : ι) (e : Ev CallAns) (m : Bytes), (R, e) ∈ g ∧ FrameIn (D S).format b m ∧
      Receives (D R) e m

/-- Three devices with the addresses 3, 3 and 7, 8 and 4, 4. -/
def threeDevices : Fin 3 → Device
  | 0 => { exampleDevice with hardwareAddress := ⟨[1, 2, 3, 4, 5, 6, 3, 3], rfl⟩ }
  | 1 => exampleDevice
  | 2 => { exampleDevice with hardwareAddress := ⟨[1, 2, 3, 4, 5, 6, 4, 4], rfl⟩ }

/-- A package for the address 1, 1, which no device has, with the sequence number 9 too. -/
def strayPackage : FrameBuffer := ⟨padded ([12] ++ (toShort ⟨[1, 1], rfl⟩ 0xffff).bytes), false⟩

/-- What is transmitted of it. -/
def strayFrame : Arr 128 :=
  padded ([12] ++ ({ toShort ⟨[1, 1], rfl⟩ 0xffff with o0 := 0x61 } : Header).bytes)

set_option maxRecDepth 20000 in
theorem strayPackage_prepared :
    Prepared (threeDevices 2) strayPackage.buffer strayFrame (some 9) [] := by
  refine Prepared.frame (toShort ⟨[1, 1], rfl⟩ 0xffff) 12 0x61 0x98 true ?_ ?_ ?_ ?_ ?_ ?_ ?_ ?_
  · refine ⟨by decide, ?_⟩
    show _ = _ ∧ _ ∧ _
    decide
  · exact ⟨by decide, by decide, 0x41, 0x98, _, rfl, by decide, by decide, by decide, by decide,
      by decide, by decide⟩
  · rfl
  · rfl
  · exact ⟨fun _ => ⟨by decide, Or.inl ⟨⟨_, rfl, by decide⟩, rfl⟩⟩, fun _ => rfl⟩
  · decide
  · decide
  · rfl

set_option maxRecDepth 40000 in
/-- C78 is false of the code: acknowledgements have no addresses.  Device 0 transmits a frame with
the sequence number 9 to device 1, device 1 acknowledges, and device 2, which at the same time
transmits a frame with the sequence number 9 to nobody, takes that for its acknowledgement. -/
theorem C78_false : ¬ C78_statement := fun h => by
  obtain ⟨t, h1, h2⟩ := poll_outcome scripted 5 (runDevice (threeDevices 0))
    ⟨some examplePackage, none, none, true⟩ []
  obtain ⟨u, k1, k2⟩ := poll_outcome scripted 5 (runDevice (threeDevices 1))
    ⟨none, some askingFrame, none, true⟩ []
  obtain ⟨v, m1, m2⟩ := poll_outcome scripted 5 (runDevice (threeDevices 2))
    ⟨some strayPackage, none, some nineAck, true⟩ []
  rw [List.nil_append] at h1 k1 m1
  have hx := outcome_pending h2
  have kx := outcome_pending k2
  have mx := outcome_pending m2
  have ht : .start (.tx, .radioTransmit askingFrame ⟨.c26, true⟩) ∈ t := by
    have h3 : (t.filterMap txEvent).take 3 = [.fetched examplePackage, .locked,
          .attempt askingFrame ⟨.c26, true⟩] := by rw [← h1]; rfl
    exact txEvent_attempt_mem (List.mem_of_mem_take (by rw [h3]; simp))
  have hr : radioReceptions t = [] := by rw [← h1]; rfl
  have ku : radioReceptions u = [askingFrame] := by rw [← k1]; rfl
  have ks : .start (.rx, .radioTransmit nineAck ⟨.c26, false⟩) ∈ u := by
    have k3 : u.filterMap rxEvent = [.got askingFrame, .pause 500, .send nineAck ⟨.c26, false⟩,
        .deliver ⟨askingFrame, true⟩] := by rw [← k1]; rfl
    exact rxEvent_send_mem (by rw [k3]; simp)
  have mr : radioReceptions v = [nineAck] := by rw [← m1]; rfl
  have mt : v.filterMap txEvent = [.fetched strayPackage, .locked,
      .attempt strayFrame ⟨.c26, true⟩, .result true, .listen ⟨.c26⟩, .heard true nineAck,
      .unlocked] := by rw [← m1]; rfl
  have hn : Network threeDevices
      (t.map ((0 : Fin 3), ·) ++ (u.map ((1 : Fin 3), ·) ++ v.map ((2 : Fin 3), ·))) := by
    refine network_of_three _ (by decide) (by decide) _ _ _ ?_ hr ?_ ?_
    · intro i
      refine ⟨.pending, ?_⟩
      match i with
      | 0 => simpa [ofDevice_append, ofDevice_map] using hx
      | 1 => simpa [ofDevice_append, ofDevice_map] using kx
      | 2 => simpa [ofDevice_append, ofDevice_map] using mx
    · intro b hb m hm
      rw [ku, List.mem_singleton] at hb
      subst hb
      exact ⟨_, ht, hm⟩
    · intro b hb m hm
      rw [mr, List.mem_singleton] at hb
      subst hb
      exact ⟨_, ks, frameIn_unique (F := lengthFormat) (b := nineAck) ⟨3, rfl, rfl⟩ hm⟩
  obtain ⟨R, e, m, hRe, hm, hrec⟩ := h (Fin 3) threeDevices (fun i => by
    match i with
    | 0 => exact ⟨lengthFormat_lawful, by decide, by decide, by decide, by decide⟩
    | 1 => exact exampleDevice_sane
    | 2 => exact ⟨lengthFormat_lawful, by decide, by decide, by decide, by decide⟩) _ hn 2 [] [] []
    strayPackage strayFrame 9 [] _ strayPackage_prepared (nineAck_sent _ rfl rfl _)
    (by simp [ofDevice_append, ofDevice_map]; exact mt) (by simp) (by simp) (.inl rfl)
  have hmf : m = ({ toShort ⟨[1, 1], rfl⟩ 0xffff with o0 := 0x61 } : Header).bytes :=
    frameIn_unique (F := lengthFormat) hm ⟨12, rfl, rfl⟩
  have key : ∀ b ∈ [askingFrame, nineAck], ¬ FrameIn lengthFormat b m := by
    intro b hb hf
    simp only [List.mem_cons, List.not_mem_nil, or_false] at hb
    rcases hb with rfl | rfl
    · have := frameIn_unique hf (m' := exchanged.bytes) ⟨12, rfl, rfl⟩
      rw [hmf] at this
      exact absurd this (by decide)
    · have := frameIn_unique hf (m' := [2, 0x10, 9]) ⟨3, rfl, rfl⟩
      rw [hmf] at this
      exact absurd this (by decide)
  have hf : ∀ i, (threeDevices i).format = lengthFormat := by
    intro i; match i with | 0 => rfl | 1 => rfl | 2 => rfl
  simp only [List.mem_append, List.mem_map] at hRe
  rcases hRe with ⟨e', he', hh⟩ | ⟨e', he', hh⟩ | ⟨e', he', hh⟩ <;> cases hh <;>
    obtain ⟨b, hb, hfb⟩ := receives_mem he' hrec <;> rw [hf] at hfb
  · rw [hr] at hb; cases hb
  · rw [ku] at hb; exact key b (by simp at hb; simp [hb]) hfb
  · rw [mr] at hb; exact key b (by simp at hb; simp [hb]) hfb

end Dot15d4.Props
